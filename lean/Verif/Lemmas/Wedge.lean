import Verif.Lemmas.OnAir

/-!
# A device that never does anything again
-/

namespace LDL

/-- Waiting for the radio to be reset, without a timer to end that. -/
def Wedged (m : Mac) : Prop := m.state = .radioReset ∧ m.timerA.armed = false

theorem process_wedged (cfg : Cfg) (e : Env) (m : Mac) (h : Wedged m) : Wedged (process cfg e m) := by
  obtain ⟨ev, lag, m1, hp, heq⟩ := process_cases cfg e m
  obtain ⟨hs, ha⟩ := h
  have hev : ev ≠ .timerA := by
    intro he
    rcases hp.timerA with ⟨_, h, _⟩ | ⟨h, _⟩
    · unfold Timer.check at h; rw [ha] at h; simp at h
    · exact h he
  have hta : m1.timerA = m.timerA := by
    rcases hp.timerA with ⟨h, _⟩ | ⟨_, h⟩
    · exact absurd h hev
    · exact h
  obtain ⟨_, _, _, _, _, _, _, _, _, hme⟩ := hp.eq
  have hst : m1.state = .radioReset := by rw [hme]; exact hs
  have hd : dispatch cfg e ev lag m1 = m1 := by
    unfold dispatch processRadioReset
    simp only [hst]
    rw [if_neg hev]
  rw [hd, ite_self] at heq
  obtain ⟨p, t, hsn⟩ := setNextBandEvent_shape cfg e m1
  rw [heq, hsn]
  exact ⟨hst, by show m1.timerA.armed = false; rw [hta, ha]⟩

theorem Api.wedged {cfg : Cfg} {e : Env} {m m' : Mac} {c : Call} {st : Status} (h : Api cfg e m c m' st) (hw : Wedged m) :
    Wedged m' := by
  obtain ⟨hs, ha⟩ := hw
  have hni : m.state ≠ .idle := by rw [hs]; decide
  have hc : LDL.cancel m = { m with op := .none, out := m.out ++ if m.op = .none then [] else [.opCancelled] } := by
    rcases cancel_shape m with ⟨_, h⟩ | ⟨h, _⟩
    · exact h
    · exact absurd (Or.inr (Or.inl hs)) h
  cases h
  case entropyIdle h => exact absurd h hni
  case otaa s t hst =>
    rcases hst with ⟨h, _⟩ | ⟨_, h1, h2⟩
    · exact absurd h hni
    · exact ⟨h1.trans hs, by show t.armed = false; rw [h2, ha]⟩
  case data m1 hm1 =>
    obtain ⟨_, _, _, s, t, h, _, hst⟩ := sendData_shape cfg e m1 _ _ _ _ _ _
    rw [h]
    have h1 : m1.state = m.state := by rw [hm1]
    have h2 : m1.timerA = m.timerA := by rw [hm1]
    rcases hst with ⟨h, _⟩ | ⟨_, h3, h4⟩
    · rw [h1] at h; exact absurd h hni
    · exact ⟨by show s = _; rw [h3, h1, hs], by show t.armed = false; rw [h4, h2, ha]⟩
  case forget =>
    obtain ⟨_, _, _, _, _, h⟩ := forget_shape m
    rw [h, hc]
    exact ⟨hs, ha⟩
  case cancel => rw [hc]; exact ⟨hs, ha⟩
  all_goals exact ⟨hs, ha⟩

theorem step_wedged (cfg : Cfg) (e : Env) (m : Mac) (c : Call) (h : Wedged m) : Wedged (step cfg m e c).1 := by
  by_cases hc : c = .process
  · subst hc; exact process_wedged cfg e m h
  · exact (step_api cfg e m c hc).wedged h

/-- Cancelling in any state after the radio was booted leaves the device wedged. -/
theorem cancel_wedged (cfg : Cfg) (e : Env) (m : Mac) (c : Call) (hc : c = .cancel ∨ c = .forget)
    (hs : m.state ≠ .init ∧ m.state ≠ .radioReset ∧ m.state ≠ .radioBoot) : Wedged (step cfg m e c).1 := by
  have h : Wedged (LDL.cancel m) := by
    rcases cancel_shape m with ⟨h, _⟩ | ⟨_, h⟩
    · rcases h with h | h | h
      · exact absurd h hs.1
      · exact absurd h hs.2.1
      · exact absurd h hs.2.2
    · rw [h]; exact ⟨rfl, rfl⟩
  rcases hc with hc | hc <;> subst hc
  · exact h
  · show Wedged (LDL.forget m)
    obtain ⟨_, _, _, _, _, h'⟩ := forget_shape m
    rw [h']; exact h

theorem wedged_silent (cfg : Cfg) (e : Env) (m : Mac) (c : Call) (h : Wedged m) :
    transmissions (newEvents m (step cfg m e c).1) = [] :=
  newTransmissions cfg e m c (Or.inl (by rw [h.1]; decide))

theorem wedged_sentBy (cfg : Cfg) (calls : List (Env × Call)) (m : Mac) (h : Wedged m) : Spec.sentBy cfg m calls = [] := by
  induction calls generalizing m with
  | nil => rfl
  | cons x l ih =>
    obtain ⟨e, c⟩ := x
    show Spec.transmitted ((step cfg m e c).1.out.drop m.out.length) ++ _ = []
    have h1 : Spec.transmitted ((step cfg m e c).1.out.drop m.out.length) = [] := wedged_silent cfg e m c h
    rw [h1, List.nil_append]
    split
    · rfl
    · exact ih _ (step_wedged cfg e m c h)

end LDL
