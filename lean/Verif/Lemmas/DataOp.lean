import Verif.Lemmas.Buffer
import Verif.Lemmas.Deliver

/-!
# What holds while a data operation is in progress
-/

namespace LDL
open Spec

structure InData (cfg : Cfg) (m : Mac) : Prop where
  /-- The session counter is one ahead of that of the frame sent. -/
  counter : m.ctx.up = u32 (m.tx.counter + 1)
  small : m.tx.counter < 4294967296
  /-- The single-shot answers were sent with the frame. -/
  singles : ∀ t ∈ singles cfg.v11, ¬ Due m.ctx t
  joined : m.ctx.joined = true

theorem InData.keep {cfg : Cfg} {m m' : Mac} (h : InData cfg m) (hk : Keep m m') : InData cfg m' := by
  refine ⟨?_, ?_, ?_, hk.joined.trans h.joined⟩
  · rw [hk.up, hk.counter]; exact h.counter
  · rw [hk.counter]; exact h.small
  · intro t ht
    have hp : m'.ctx.pendingCmds = m.ctx.pendingCmds := congrArg Prod.fst hk.rx
    unfold Due
    rw [hp]
    exact h.singles t ht

theorem OpStep.inData {cfg : Cfg} {e : Env} {m m' : Mac} {c : Call} {t : List (TxSetting × Bytes)} {n : List Nat}
    (h : OpStep cfg e m c m' t n) (hu : m.ctx.up < 4294967296) (hi : DataOp m → InData cfg m) (hd : DataOp m') :
    InData cfg m' := by
  have hnd : ∀ {o : Op}, m'.op = o → o ≠ .dataUnconfirmed → o ≠ .dataConfirmed → False := by
    intro o h1 h2 h3
    rcases hd with hd | hd
    · exact h2 (h1.symm.trans hd)
    · exact h3 (h1.symm.trans hd)
  have hkeep : Keep m m' → InData cfg m' := by
    intro hk
    refine (hi ?_).keep hk
    rcases hd with hd | hd
    · exact Or.inl (hk.op.symm.trans hd)
    · exact Or.inr (hk.op.symm.trans hd)
  cases h with
  | idle _ ho' => rcases ho' with h | h <;> exact (hnd h (by simp) (by simp)).elim
  | keep _ hk => exact hkeep hk
  | ended _ ho' => exact (hnd ho' (by simp) (by simp)).elim
  | sent _ _ _ _ hk => exact hkeep hk
  | repeated _ _ _ _ hk => exact hkeep hk
  | request _ _ _ hr => exact (hnd hr.op (by simp) (by simp)).elim
  | join _ _ _ hr => exact (hnd hr.op (by simp) (by simp)).elim
  | send ho confirmed port data len opts hc hj hp hg freq ch rate hsel hl hm' =>
    obtain ⟨x, hx, _, _, a3, a4, _⟩ := sendData_fields cfg e _ confirmed port data len opts _ m' hm'
    have hctx : m'.ctx = (putAnswers cfg { m.ctx with up := u32 (m.ctx.up + 1) } (dataOptions opts)).2 := by
      rw [a4, hx]; rfl
    have htx : m'.tx.counter = m.ctx.up := by rw [a3, hx]
    have hai := putAnswers_inv cfg { m.ctx with up := u32 (m.ctx.up + 1) } (dataOptions opts)
    obtain ⟨pc, hpc⟩ := hai.session
    refine ⟨?_, by rw [htx]; exact hu, ?_, ?_⟩
    · rw [htx, hctx, hpc]
    · intro t ht hdue
      rw [hctx] at hdue
      exact ((hai.due t).mp hdue).2 ht
    · rw [hctx, hpc]; exact hj

theorem Spec.Reachable.inData {cfg : Cfg} {m : Mac} (h : Reachable cfg m) : DataOp m → InData cfg m := by
  induction h with
  | init region arg e _ ha =>
    obtain ⟨_, h2, _⟩ := init_opOk cfg region arg e
    rintro (h | h) <;> exact absurd (h2.symm.trans h) (by decide)
  | step e c h hc ih =>
    obtain ⟨o, _, hs, _⟩ := step_does cfg e _ c h.reach.opOk
    exact hs.inData h.sessionOk.up ih

end LDL
