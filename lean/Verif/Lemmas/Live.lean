import Verif.Lemmas.OnAir
import Verif.Lemmas.Buffer
import Verif.Lemmas.Bands
import Verif.Lemmas.DataOp
import Verif.Lemmas.KeyStep

/-!
# What keeps a device going: interrupt latch and timers by state
-/

namespace LDL

/-- The states in which the radio is in use. -/
def radioInUse (s : St) : Bool :=
  match s with
  | .tx | .rx1 | .rx2 => true
  | _ => false

theorem radioInUse_iff (s : St) : radioInUse s = true ↔ s = .tx ∨ s = .rx1 ∨ s = .rx2 := by
  cases s <;> simp [radioInUse]

/-- An interrupt is accepted exactly while the radio is in use. -/
def LatchOk (m : Mac) : Prop := m.inputArmed = radioInUse m.state

theorem Missing.latch {cfg : Cfg} {e : Env} {m m' : Mac} (h : Missing cfg e m m')
    (ho : m.op = .joining ∨ m.op = .dataUnconfirmed ∨ m.op = .dataConfirmed) :
    m'.inputArmed = m.inputArmed ∧ m'.inputState = m.inputState ∧
      (m'.state = .waitTX ∨ m'.state = .idle ∨ m'.state = .waitOTAA) := by
  cases h with
  | retry => simp
  | giveUp => simp
  | nextJoin =>
    obtain ⟨dn, b, bl, t, hn⟩ := nextJoinRequest_shape cfg e { m with trials := u32 (m.trials + 1) }
    rw [hn]; simp
  | exhausted => simp
  | other h => rcases ho with ho | ho | ho <;> simp [ho] at h

theorem RadioErr.latch {cfg : Cfg} {e : Env} {m m' : Mac} (h : RadioErr cfg e m m') :
    m'.inputArmed = false ∧ m'.inputState = m.inputState ∧ m'.state = .radioReset ∧
      ∃ x, m'.timerA = Timer.set e x := by
  cases h with
  | op => exact ⟨rfl, rfl, rfl, _, rfl⟩
  | nextJoin ho hn x hx =>
    obtain ⟨dn, b, bl, t, h⟩ := nextJoinRequest_shape cfg e { m with
      inputArmed := false, timerA := m.timerA.clear, timerB := m.timerB.clear, trials := u32 (m.trials + 1) }
    rw [hx, h]; exact ⟨rfl, rfl, rfl, _, rfl⟩
  | exhausted => exact ⟨rfl, rfl, rfl, _, rfl⟩

theorem OpOk.inRx {m : Mac} (h : OpOk m) (hs : m.state = .rx1 ∨ m.state = .rx2 ∨ m.state = .rx2Lockout) :
    m.op = .joining ∨ m.op = .dataUnconfirmed ∨ m.op = .dataConfirmed := by
  unfold OpOk at h
  rcases hs with hs | hs | hs <;> rw [hs] at h <;> simpa [opAllowed, or_assoc] using h

/-- The handler does nothing, or the device goes to another state. -/
theorem Disp.moves {cfg : Cfg} {e : Env} {ev : Sme} {lag : Nat} {m m' : Mac} (h : Disp cfg e ev lag m m')
    (ho : OpOk m) : m' = m ∧ Ignores ev m ∨ m'.state ≠ m.state := by
  have hmiss : ∀ x : Mac, (x.op = .joining ∨ x.op = .dataUnconfirmed ∨ x.op = .dataConfirmed) →
      (x.state = .rx1 ∨ x.state = .rx2 ∨ x.state = .rx2Lockout) → (downlinkMissing cfg e x).state ≠ x.state := by
    intro x hx hs
    have := ((downlinkMissing_missing cfg e x).latch hx).2.2
    rcases hs with hs | hs | hs <;> rcases this with h | h | h <;> rw [h, hs] <;> decide
  have herr : ∀ x : Mac, (handleRadioError cfg e x).state = .radioReset :=
    fun x => (handleRadioError_cases cfg e x).latch.2.2.1
  have hin := OpOk.inRx ho
  cases h with
  | stay hi => exact Or.inl ⟨rfl, hi⟩
  | init hs => right; rw [hs]; simp
  | reset hs => right; rw [hs]; simp
  | boot hs => right; rw [hs]; show bootState m.op ≠ _; cases m.op <;> decide
  | startEntropy hs => right; rw [hs]; simp
  | entropy hs => right; rw [hs]; simp
  | otaa hs => right; rw [hs]; simp
  | waitA hs => right; rcases hs with hs | hs | hs <;> rw [hs] <;> simp [waitNext]
  | waitB hs => right; rw [hs]; simp [waitNext]
  | startTX hs => right; rw [hs]; simp
  | startRX1 hs => right; rw [hs]; simp
  | startRX2 hs => right; rw [hs]; simp
  | txError hs => right; rw [herr, hs]; decide
  | txDone hs =>
    right
    obtain ⟨b, hb⟩ := registerTime_shape (m.emit .getStatus)
    rw [hb]
    obtain ⟨r1, r2, ta, tb, s, h, hst⟩ := txComplete_shape cfg e lag { m.emit .getStatus with band := b }
    rw [h, hs]
    rcases hst with ⟨rfl, _⟩ | ⟨rfl, _⟩ <;> simp
  | rxError hs => right; rw [herr]; rcases hs with hs | hs <;> rw [hs] <;> decide
  | rxRejected hs =>
    right
    have h' : m.state = .rx1 ∨ m.state = .rx2 ∨ m.state = .rx2Lockout := hs.elim Or.inl (fun h => Or.inr (Or.inl h))
    exact hmiss (packetState e m) (hin h') h'
  | rxJoin hs he hr f buf =>
    right
    obtain ⟨r, cc, cm, v, pc, k, h⟩ := joinAccepted_shape cfg (packetState e m) f buf
    rw [h]
    show St.idle ≠ m.state
    rcases hs with hs | hs <;> rw [hs] <;> decide
  | rxData hs he hr f buf =>
    right
    obtain ⟨c, o, h, _⟩ := dataReceived_shape cfg e (packetState e m) f buf
    rw [h]
    show St.idle ≠ m.state
    rcases hs with hs | hs <;> rw [hs] <;> decide
  | rxTimeout1 hs => right; rw [hs]; simp
  | rxTimeout2 hs => right; rw [hs]; simp
  | lockout hs => right; exact hmiss m (hin (by simp [hs])) (by simp [hs])

theorem Disp.latch {cfg : Cfg} {e : Env} {ev : Sme} {lag : Nat} {m m' : Mac} (h : Disp cfg e ev lag m m')
    (ho : OpOk m) (h1 : ev = .interrupt → m.inputArmed = false) (h2 : ev ≠ .interrupt → m.inputArmed = radioInUse m.state)
    (h3 : m.inputState = false) : LatchOk m' ∧ m'.inputState = false := by
  have key : ∀ x : Mac, x.inputArmed = radioInUse x.state → x.inputState = false → LatchOk x ∧ x.inputState = false :=
    fun x hx hy => ⟨hx, hy⟩
  have hoff : radioInUse m.state = false → m.inputArmed = false := fun h => by
    by_cases he : ev = .interrupt
    · exact h1 he
    · rw [h2 he, h]
  cases h with
  | stay hi =>
    refine key _ ?_ h3
    by_cases he : ev = .interrupt
    · rw [h1 he]
      subst he
      unfold Ignores at hi
      cases hs : m.state <;> rw [hs] at hi <;> simp_all [radioInUse]
    · exact h2 he
  | init hs => exact key _ (hoff (by rw [hs]; rfl)) h3
  | reset hs => exact key _ (hoff (by rw [hs]; rfl)) h3
  | boot hs =>
    refine key _ ?_ h3
    show m.inputArmed = radioInUse (bootState m.op)
    rw [hoff (by rw [hs]; rfl)]
    cases m.op <;> rfl
  | startEntropy hs => exact key _ (hoff (by rw [hs]; rfl)) h3
  | entropy hs => exact key _ (hoff (by rw [hs]; rfl)) h3
  | otaa hs => exact key _ (hoff (by rw [hs]; rfl)) h3
  | waitA hs =>
    rcases hs with hs | hs | hs <;>
      exact key _ (by show m.inputArmed = radioInUse (waitNext m.state); rw [hoff (by rw [hs]; rfl), hs]; rfl) h3
  | waitB hs =>
    exact key _ (by show m.inputArmed = radioInUse (waitNext m.state); rw [hoff (by rw [hs]; rfl), hs]; rfl) h3
  | startTX => exact key _ rfl rfl
  | startRX1 => exact key _ rfl rfl
  | startRX2 => exact key _ rfl rfl
  | txError =>
    obtain ⟨b, hb⟩ := registerTime_shape (statusRead ev m)
    obtain ⟨ha, hi, hs, _⟩ := (handleRadioError_cases cfg e (registerTime (statusRead ev m))).latch
    refine key _ (by rw [ha, hs]; rfl) ?_
    rw [hi, hb]
    show (statusRead ev m).inputState = false
    unfold statusRead
    split <;> exact h3
  | txDone hs he =>
    obtain ⟨b, hb⟩ := registerTime_shape (m.emit .getStatus)
    rw [hb]
    obtain ⟨r1, r2, ta, tb, s, h, hst⟩ := txComplete_shape cfg e lag { m.emit .getStatus with band := b }
    rw [h]
    refine key _ ?_ h3
    show m.inputArmed = radioInUse s
    rw [h1 he]
    rcases hst with ⟨rfl, _⟩ | ⟨rfl, _⟩ <;> rfl
  | rxError hs =>
    obtain ⟨ha, hi, hs, _⟩ := (handleRadioError_cases cfg e (m.emit .getStatus)).latch
    exact key _ (by rw [ha, hs]; rfl) (by rw [hi]; exact h3)
  | rxRejected hs he =>
    obtain ⟨ha, hi, hst⟩ := (downlinkMissing_missing cfg e (packetState e m)).latch
      (OpOk.inRx ho (hs.elim Or.inl (fun h => Or.inr (Or.inl h))))
    have ha : _ = m.inputArmed := ha
    have hi : _ = m.inputState := hi
    refine key _ ?_ (by rw [hi, h3])
    rw [ha, h1 he]
    rcases hst with h | h | h <;> rw [h] <;> rfl
  | rxJoin hs he hr f buf =>
    obtain ⟨r, cc, cm, v, pc, k, h⟩ := joinAccepted_shape cfg (packetState e m) f buf
    rw [h]
    exact key _ (h1 he) h3
  | rxData hs he hr f buf =>
    obtain ⟨c, o, h, _⟩ := dataReceived_shape cfg e (packetState e m) f buf
    rw [h]
    exact key _ (h1 he) h3
  | rxTimeout1 hs he => exact key _ (h1 he) h3
  | rxTimeout2 hs he => exact key _ (h1 he) h3
  | lockout hs =>
    obtain ⟨ha, hi, hst⟩ := (downlinkMissing_missing cfg e m).latch (OpOk.inRx ho (by simp [hs]))
    refine key _ ?_ (by rw [hi, h3])
    rw [ha, hoff (by rw [hs]; rfl)]
    rcases hst with h | h | h <;> rw [h] <;> rfl

theorem process_latch (cfg : Cfg) (e : Env) (m : Mac) (ho : OpOk m) (h : LatchOk m) :
    LatchOk (process cfg e m) ∧ (process cfg e m).inputState = false := by
  obtain ⟨ev, lag, m1, m2, p, t, hp, hd, heq⟩ := process_disp cfg e m
  obtain ⟨_, _, _, _, _, _, _, _, _, hme⟩ := hp.eq
  have hst : m1.state = m.state := by rw [hme]
  have key : LatchOk m2 ∧ m2.inputState = false := by
    rcases hd with ⟨he, rfl⟩ | ⟨_, hd⟩
    · rcases hp.latch with ⟨h', _⟩ | ⟨_, ha, hi⟩
      · rw [he] at h'; cases h'
      · exact ⟨by unfold LatchOk; rw [ha, hst]; exact h, hi⟩
    · refine hd.latch (hp.opOk ho) ?_ ?_ ?_
      · intro he
        rcases hp.latch with ⟨_, ha, _⟩ | ⟨h', _⟩
        · exact ha
        · exact absurd he h'
      · intro he
        rcases hp.latch with ⟨h', _⟩ | ⟨_, ha, _⟩
        · exact absurd h' he
        · rw [ha, hst]; exact h
      · rcases hp.latch with ⟨_, _, hi, _⟩ | ⟨_, _, hi⟩ <;> exact hi
  rw [heq]
  exact key

theorem cancel_latch (m : Mac) (h : LatchOk m) : LatchOk (LDL.cancel m) := by
  rcases cancel_shape m with ⟨_, h'⟩ | ⟨_, h'⟩
  · rw [h']; exact h
  · rw [h']; rfl

theorem Api.latch {cfg : Cfg} {e : Env} {m m' : Mac} {c : Call} {st : Status} (h : Api cfg e m c m' st)
    (hm : LatchOk m) : LatchOk m' := by
  have hidle : m.state = .idle → m.inputArmed = false := fun h => by rw [hm, h]; rfl
  cases h
  case entropyIdle h => exact hidle h
  case otaa x hx s t hst =>
    obtain ⟨k, hk⟩ := deriveJoinKeys_shape cfg { m with trials := 0, day := 60 * 60 * 24 * timeTPS }
    obtain ⟨dn, b, bl, t, h⟩ := nextJoinRequest_shape cfg e
      (Ops.deriveJoinKeys cfg { m with trials := 0, day := 60 * 60 * 24 * timeTPS })
    have hx' : x.inputArmed = m.inputArmed := by rw [hx, h, hk]
    show x.inputArmed = radioInUse s
    rw [hx']
    rcases hst with ⟨h', rfl, _⟩ | ⟨_, rfl, _⟩
    · exact hidle h'
    · exact hm
  case data m1 hm1 =>
    obtain ⟨_, _, _, s, t, h, _, hst⟩ := sendData_shape cfg e m1 _ _ _ _ _ _
    rw [h]
    have h1 : m1.state = m.state := by rw [hm1]
    have h2 : m1.inputArmed = m.inputArmed := by rw [hm1]
    show m1.inputArmed = radioInUse s
    rw [h2]
    rw [h1] at hst
    rcases hst with ⟨h', rfl, _⟩ | ⟨_, rfl, _⟩
    · exact hidle h'
    · exact hm
  case forget =>
    obtain ⟨_, _, _, _, _, h⟩ := forget_shape m
    have := cancel_latch m hm
    rw [h]; exact this
  case cancel => exact cancel_latch m hm
  all_goals exact hm

theorem step_latch (cfg : Cfg) (m : Mac) (e : Env) (c : Call) (ho : OpOk m) (h : LatchOk m) :
    LatchOk (step cfg m e c).1 := by
  by_cases hc : c = .process
  · subst hc; exact (process_latch cfg e m ho h).1
  · exact (step_api cfg e m c hc).latch h

theorem Spec.Reachable.latch {cfg : Cfg} {m : Mac} (h : Spec.Reachable cfg m) : LatchOk m := by
  induction h with
  | init region arg e _ _ =>
    obtain ⟨c, k, h, _⟩ := init_fields cfg region arg e
    rw [h]; rfl
  | step e c h _ ih => exact step_latch cfg _ e c h.reach.opOk ih

/-! ## Timers by state -/

/-- The timers that carry a device on from a state, with what else is needed for that. -/
def Carried (m : Mac) : Prop :=
  match m.state with
  | .idle => True
  | .waitOTAA => m.timerA.armed = true ∨ 0 < m.band GLOBAL ∧ m.parked = false ∧ m.timerBand.armed = true
  | .waitRX1 | .startRadioForRX1 | .rx1 => m.timerA.armed = true ∧ m.timerB.armed = true
  | .waitRX2 | .startRadioForRX2 => m.timerA.armed = false ∧ m.timerB.armed = true
  | _ => m.timerA.armed = true

theorem Carried.of_timerA {m : Mac} (h : m.timerA.armed = true)
    (hs : m.state ≠ .waitRX1 ∧ m.state ≠ .startRadioForRX1 ∧ m.state ≠ .rx1 ∧ m.state ≠ .waitRX2 ∧ m.state ≠ .startRadioForRX2) :
    Carried m := by
  unfold Carried
  cases h' : m.state <;> simp_all

theorem Missing.carried {cfg : Cfg} {e : Env} {m m' : Mac} (h : Missing cfg e m m')
    (ho : m.op = .joining ∨ m.op = .dataUnconfirmed ∨ m.op = .dataConfirmed) : Carried m' := by
  cases h with
  | retry => exact .of_timerA rfl (by simp)
  | giveUp => trivial
  | nextJoin => exact .of_timerA rfl (by simp)
  | exhausted => trivial
  | other h => rcases ho with ho | ho | ho <;> simp [ho] at h

theorem RadioErr.carried {cfg : Cfg} {e : Env} {m m' : Mac} (h : RadioErr cfg e m m') : Carried m' := by
  obtain ⟨_, _, h1, x, h2⟩ := h.latch
  exact .of_timerA (by rw [h2]; rfl) (by rw [h1]; simp)

/-- During the first receive window, the time of the second has come, and nothing else has happened. -/
def Overtaken (e : Env) (m : Mac) : Prop :=
  (m.state = .waitRX1 ∨ m.state = .startRadioForRX1 ∨ m.state = .rx1) ∧
    m.inputState = false ∧ m.timerA.check e = none ∧ m.timerB.check e ≠ none

theorem check_armed {e : Env} {t : Timer} {lag : Nat} (h : t.check e = some lag) : t.armed = true := by
  unfold Timer.check at h
  cases ht : t.armed
  · rw [ht] at h; simp at h
  · rfl

/-- After the handler the device is carried on, but perhaps for the band timer, which is set afterwards. -/
theorem Disp.carried {cfg : Cfg} {e : Env} {ev : Sme} {lag : Nat} {m0 m m' : Mac} (h : Disp cfg e ev lag m m')
    (hp : Prep e m0 m ev lag) (ho : OpOk m) (hc : Carried m0) (hl : ¬ Overtaken e m0) :
    Carried m' ∨ m'.state = .waitOTAA ∧ 0 < m'.band GLOBAL := by
  obtain ⟨_, _, _, _, _, _, _, _, _, hme⟩ := hp.eq
  have hst : m0.state = m.state := by rw [hme]
  have fA : ev ≠ .timerA → m.timerA = m0.timerA := fun h => by
    rcases hp.timerA with ⟨h', _⟩ | ⟨_, h'⟩
    · exact absurd h' h
    · exact h'
  have fB : ev ≠ .timerB → m.timerB = m0.timerB := fun h => by
    rcases hp.timerB with ⟨h', _⟩ | ⟨_, h'⟩
    · exact absurd h' h
    · exact h'
  have gA : ev = .timerA → m0.timerA.armed = true := fun h => by
    rcases hp.timerA with ⟨_, h', _⟩ | ⟨h', _⟩
    · exact check_armed h'
    · exact absurd h h'
  have hlate : ev = .timerB → ¬ (m.state = .waitRX1 ∨ m.state = .startRadioForRX1 ∨ m.state = .rx1) := by
    intro hb hs
    refine hl ⟨by rw [hst]; exact hs, ?_, hp.quietA (Or.inl hb), ?_⟩
    · cases hi : m0.inputState with
      | false => rfl
      | true => have := hp.interrupt.2 hi; rw [hb] at this; cases this
    · rcases hp.timerB with ⟨_, h', _⟩ | ⟨h', _⟩
      · rw [h']; simp
      · exact absurd hb h'
  have hmiss : ∀ x : Mac, x.op = m.op → (m.state = .rx1 ∨ m.state = .rx2 ∨ m.state = .rx2Lockout) →
      Carried (downlinkMissing cfg e x) := fun x hx hs =>
    (downlinkMissing_missing cfg e x).carried (by rw [hx]; exact OpOk.inRx ho hs)
  unfold Carried at hc
  rw [hst] at hc
  clear hme hp hl hst
  cases h with
  | stay hi =>
    unfold Ignores at hi
    unfold Carried
    cases hs : m.state <;> rw [hs] at hi hc hlate <;> simp only [reduceCtorEq, or_false, or_true, not_false_eq_true, imp_true_iff, true_or, not_true_eq_false] at hi hc hlate
    case waitOTAA => exact Or.inr ⟨rfl, by omega⟩
    case idle => exact Or.inl trivial
    all_goals
      left
      simp only []
    all_goals simp_all
  | init hs => exact Or.inl (.of_timerA rfl (by simp))
  | reset hs => exact Or.inl (.of_timerA rfl (by simp))
  | boot hs =>
    left
    unfold Carried bootState
    cases m.op <;> simp [Timer.set]
  | startEntropy hs => exact Or.inl (.of_timerA rfl (by simp))
  | entropy hs => exact Or.inl trivial
  | otaa hs => exact Or.inl (.of_timerA rfl (by simp))
  | waitA hs he =>
    left
    rcases hs with hs | hs | hs
    · have hb : ev ≠ .timerB := fun h => hlate h (Or.inl hs)
      rw [hs] at hc
      have := fB hb
      unfold Carried
      simp only [hs, waitNext, this]
      exact ⟨rfl, hc.2⟩
    · exact .of_timerA rfl (by simp [hs, waitNext])
    · exact .of_timerA rfl (by simp [hs, waitNext])
  | waitB hs he =>
    left
    rw [hs] at hc
    have ha : ev ≠ .timerA := fun h => by have := gA h; rw [hc.1] at this; cases this
    unfold Carried
    simp only [hs, waitNext, fA ha]
    exact ⟨hc.1, rfl⟩
  | startTX hs => exact Or.inl (.of_timerA rfl (by simp))
  | startRX1 hs he =>
    left
    rw [hs] at hc
    have : ev ≠ .timerB := by rw [he]; simp
    refine ⟨rfl, ?_⟩
    show m.timerB.armed = true
    rw [fB this]; exact hc.2
  | startRX2 hs => exact Or.inl (.of_timerA rfl (by simp))
  | txError => exact Or.inl (handleRadioError_cases ..).carried
  | txDone hs =>
    left
    obtain ⟨r1, r2, ta, tb, s, h, hst⟩ := txComplete_shape cfg e lag (registerTime (m.emit .getStatus))
    rw [h]
    rcases hst with ⟨rfl, x, y, rfl, rfl⟩ | ⟨rfl, rfl, y, rfl⟩
    · exact ⟨rfl, rfl⟩
    · exact ⟨rfl, rfl⟩
  | rxError hs => exact Or.inl (handleRadioError_cases ..).carried
  | rxRejected hs => exact Or.inl (hmiss _ rfl (hs.elim Or.inl (fun h => Or.inr (Or.inl h))))
  | rxJoin hs he hr f buf =>
    left
    obtain ⟨r, cc, cm, v, pc, k, h⟩ := joinAccepted_shape cfg (packetState e m) f buf
    rw [h]; trivial
  | rxData hs he hr f buf =>
    left
    obtain ⟨c, o, h, _⟩ := dataReceived_shape cfg e (packetState e m) f buf
    rw [h]; trivial
  | rxTimeout1 hs he =>
    left
    rw [hs] at hc
    refine ⟨rfl, ?_⟩
    show m.timerB.armed = true
    rw [fB (by rw [he]; simp)]; exact hc.2
  | rxTimeout2 hs => exact Or.inl (.of_timerA rfl (by simp))
  | lockout hs => exact Or.inl (hmiss _ rfl (by simp [hs]))

theorem minBand_le (m : Mac) (h : 0 < m.band GLOBAL) : minBand m ≤ m.band GLOBAL ∨ m.band GLOBAL ≥ UINT32_MAX := by
  unfold minBand
  simp only [List.foldl_cons, List.foldl_nil]
  have key : ∀ x y : Nat, 0 < y → (if y > 0 then (if y < x then y else x) else x) ≤ y := by
    intro x y h
    rw [if_pos h]; split <;> omega
  exact Or.inl (key _ _ h)

theorem setNextBandEvent_armed (cfg : Cfg) (e : Env) (m : Mac) (h : 0 < m.band GLOBAL) (hm : m.band GLOBAL < UINT32_MAX) :
    (setNextBandEvent cfg e m).parked = false ∧ (setNextBandEvent cfg e m).timerBand.armed = true := by
  have h1 : minBand m ≤ m.band GLOBAL := by
    rcases minBand_le m h with h | h
    · exact h
    · omega
  have h2 : nextTime m = m.band GLOBAL := by
    unfold nextTime
    simp only []
    rw [if_pos h1, if_neg]
    rintro ⟨h, _⟩
    omega
  have hlt : nextTime m < UINT32_MAX := by rw [h2]; exact hm
  unfold setNextBandEvent
  simp only []
  change (if nextTime m < UINT32_MAX then _ else _ : Mac).parked = false ∧ (if nextTime m < UINT32_MAX then _ else _ : Mac).timerBand.armed = true
  rw [if_pos hlt]
  exact ⟨rfl, rfl⟩

/-- The outcomes of `process`, with the counters. -/
theorem process_parts (cfg : Cfg) (e : Env) (m : Mac) : ∃ ev lag m1 m2, Prep e m m1 ev lag ∧
    m1.clock = (ticked cfg e m).clock ∧ (ev = .none → (processBands cfg e m).1 = false) ∧
    (ev = .none ∧ m2 = m1 ∨ ev ≠ .none ∧ Disp cfg e ev lag m1 m2) ∧ process cfg e m = setNextBandEvent cfg e m2 := by
  have hready : (pickEvent e (processBands cfg e m).1 (processBands cfg e m).2).1 = .none → (processBands cfg e m).1 = false := by
    generalize (processBands cfg e m).1 = r
    generalize (processBands cfg e m).2 = x
    unfold pickEvent inputCheck
    by_cases hi : x.inputState = true
    · rw [if_pos hi]; intro h; cases h
    · rw [if_neg hi]
      dsimp only
      cases x.timerA.check e with
      | some lag => intro h; cases h
      | none =>
        dsimp only
        cases x.timerB.check e with
        | some lag => intro h; cases h
        | none => cases r <;> simp
  have hprep := pickEvent_prep cfg e m
  have hcl := pickEvent_clock e (processBands cfg e m).1 (processBands cfg e m).2
  have hproc : process cfg e m = setNextBandEvent cfg e
      (if (pickEvent e (processBands cfg e m).1 (processBands cfg e m).2).1 = .none
        then (pickEvent e (processBands cfg e m).1 (processBands cfg e m).2).2.2
        else dispatch cfg e (pickEvent e (processBands cfg e m).1 (processBands cfg e m).2).1
          (pickEvent e (processBands cfg e m).1 (processBands cfg e m).2).2.1
          (pickEvent e (processBands cfg e m).1 (processBands cfg e m).2).2.2) := rfl
  change _ = (ticked cfg e m).clock at hcl
  generalize (pickEvent e (processBands cfg e m).1 (processBands cfg e m).2).1 = ev at *
  generalize (pickEvent e (processBands cfg e m).1 (processBands cfg e m).2).2.1 = lag at *
  generalize (pickEvent e (processBands cfg e m).1 (processBands cfg e m).2).2.2 = m1 at *
  by_cases hn : ev = .none
  · rw [if_pos hn] at hproc
    exact ⟨ev, lag, m1, m1, hprep, hcl, hready, Or.inl ⟨hn, rfl⟩, hproc⟩
  · rw [if_neg hn] at hproc
    exact ⟨ev, lag, m1, _, hprep, hcl, hready, Or.inr ⟨hn, dispatch_disp cfg e ev lag m1⟩, hproc⟩

theorem Mac.clock_band {m m' : Mac} (h : m'.clock = m.clock) : m'.band = m.band := by
  unfold Mac.clock at h
  simp only [Prod.mk.injEq] at h
  exact h.2.2.2

theorem countDown_global (band : Nat → Nat) (time : Nat) : countDown band time GLOBAL ≤ band GLOBAL ∧
    (0 < band GLOBAL → countDown band time GLOBAL = 0 → (updateDownCounter (band GLOBAL) time).2 = true) := by
  unfold countDown updateDownCounter
  rw [if_pos (show GLOBAL < 6 by decide)]
  by_cases h : band GLOBAL > 0
  · rw [if_pos h]
    by_cases h2 : band GLOBAL ≤ time
    · rw [if_pos h2]; simp
    · rw [if_neg h2]; simp only []; omega
  · rw [if_neg h]; simp only []; omega

/-- The aggregate counter after the time was counted. -/
theorem ticked_global (cfg : Cfg) (e : Env) (m : Mac) : (ticked cfg e m).band GLOBAL ≤ m.band GLOBAL ∧
    (0 < m.band GLOBAL → (ticked cfg e m).band GLOBAL = 0 → (processBands cfg e m).1 = true) := by
  unfold ticked processBands
  cases hp : m.parked
  · simp only [Bool.false_eq_true, if_false]
    have hc := countDown_global m.band (elapsed cfg (timerDelta m.timeTicks e.ticks) m.timeRemainder).1
    have hb : (tickBands cfg e m).band = countDown m.band (elapsed cfg (timerDelta m.timeTicks e.ticks) m.timeRemainder).1 := rfl
    by_cases h : anyExpired m.band (elapsed cfg (timerDelta m.timeTicks e.ticks) m.timeRemainder).1 = true ∧
      (tickBands cfg e m).band GLOBAL = 0
    · rw [if_pos h]
      exact ⟨by show (tickBands cfg e m).band GLOBAL ≤ _; rw [hb]; exact hc.1, fun _ _ => rfl⟩
    · rw [if_neg h]
      refine ⟨by show (tickBands cfg e m).band GLOBAL ≤ _; rw [hb]; exact hc.1, fun h1 h2 => ?_⟩
      exfalso
      have h2 : (tickBands cfg e m).band GLOBAL = 0 := h2
      refine h ⟨?_, h2⟩
      rw [hb] at h2
      have := hc.2 h1 h2
      unfold anyExpired
      rw [List.any_eq_true]
      exact ⟨5, by simp, this⟩
  · simp only [if_true]
    exact ⟨Nat.le_refl _, fun h1 h2 => by omega⟩

/-- About to transmit, or transmitting. -/
def Sending (m : Mac) : Prop := m.state = .waitTX ∨ m.state = .startRadioForTX ∨ m.state = .tx

theorem Missing.notJoinSending {cfg : Cfg} {e : Env} {m m' : Mac} (h : Missing cfg e m m')
    (ho : m.op = .joining ∨ m.op = .dataUnconfirmed ∨ m.op = .dataConfirmed) : ¬ (m'.op = .joining ∧ Sending m') := by
  rintro ⟨h1, h2⟩
  cases h with
  | retry h => rcases h with h | h <;> rw [show m.op = .joining from h1] at h <;> cases h
  | giveUp => cases h1
  | nextJoin => simp [Sending] at h2
  | exhausted => cases h1
  | other h => rcases ho with ho | ho | ho <;> simp [ho] at h

/-- How a join request comes to be sent. -/
theorem Disp.intoSending {cfg : Cfg} {e : Env} {ev : Sme} {lag : Nat} {m m' : Mac} (h : Disp cfg e ev lag m m') (ho : OpOk m)
    (hop : m'.op = .joining) (hs : Sending m') :
    m.op = .joining ∧ m'.band = m.band ∧ (Sending m ∨ m.state = .waitOTAA ∧ m.band GLOBAL = 0) := by
  have herr : ∀ x, ¬ Sending (handleRadioError cfg e x) := by
    intro x hx
    unfold Sending at hx
    rw [(handleRadioError_cases cfg e x).latch.2.2.1] at hx
    simp at hx
  have hmiss : ∀ x : Mac, x.op = m.op → (m.state = .rx1 ∨ m.state = .rx2 ∨ m.state = .rx2Lockout) →
      ¬ ((downlinkMissing cfg e x).op = .joining ∧ Sending (downlinkMissing cfg e x)) := fun x hx hs =>
    (downlinkMissing_missing cfg e x).notJoinSending (by rw [hx]; exact OpOk.inRx ho hs)
  cases h with
  | stay => exact ⟨hop, rfl, Or.inl hs⟩
  | init => simp [Sending] at hs
  | reset => simp [Sending] at hs
  | boot =>
    have hop : m.op = .joining := hop
    simp [Sending, hop, bootState] at hs
  | startEntropy => simp [Sending] at hs
  | entropy => simp [Sending] at hs
  | otaa h1 h2 => exact ⟨hop, rfl, Or.inr ⟨h1, h2⟩⟩
  | waitA h1 =>
    refine ⟨hop, rfl, Or.inl ?_⟩
    rcases h1 with h1 | h1 | h1
    · simp [Sending, waitNext, h1] at hs
    · simp [Sending, waitNext, h1] at hs
    · exact Or.inl h1
  | waitB h1 => simp [Sending, waitNext, h1] at hs
  | startTX h1 => exact ⟨hop, rfl, Or.inl (Or.inr (Or.inl h1))⟩
  | txError => exact absurd hs (herr _)
  | txDone =>
    obtain ⟨r1, r2, ta, tb, s, h, hst⟩ := txComplete_shape cfg e lag (registerTime (m.emit .getStatus))
    rw [h] at hs
    rcases hst with ⟨rfl, _⟩ | ⟨rfl, _⟩ <;> simp [Sending] at hs
  | startRX1 => simp [Sending] at hs
  | startRX2 => simp [Sending] at hs
  | rxError => exact absurd hs (herr _)
  | rxRejected h1 => exact absurd ⟨hop, hs⟩ (hmiss (packetState e m) rfl (h1.elim Or.inl (fun h => Or.inr (Or.inl h))))
  | rxJoin _ _ _ f buf =>
    obtain ⟨r, cc, cm, v, pc, k, h⟩ := joinAccepted_shape cfg (packetState e m) f buf
    rw [h] at hs; simp [Sending, pushSessionUpdate, Mac.emit] at hs
  | rxData _ _ _ f buf =>
    obtain ⟨c, o, h, _⟩ := dataReceived_shape cfg e (packetState e m) f buf
    rw [h] at hs; simp [Sending, pushSessionUpdate, Mac.emit] at hs
  | rxTimeout1 => simp [Sending] at hs
  | rxTimeout2 => simp [Sending] at hs
  | lockout h1 => exact absurd ⟨hop, hs⟩ (hmiss _ rfl (by simp [h1]))

/-- The aggregate counter of a device that is not joined. -/
structure GlobalOk (m : Mac) : Prop where
  unjoined : m.op = .joining → m.ctx.joined = false
  bound : m.ctx.joined = false → m.band GLOBAL < UINT32_MAX
  zero : m.op = .joining → Sending m → m.band GLOBAL = 0

theorem unjoined_step {cfg : Cfg} {e : Env} {m : Mac} {c : Call} (h : m.op = .joining → m.ctx.joined = false) :
    (step cfg m e c).1.op = .joining → (step cfg m e c).1.ctx.joined = false := by
  intro ho
  cases step_keys cfg e m c h with
  | quiet hq _ =>
    cases hjn : (step cfg m e c).1.ctx.joined with
    | false => rfl
    | true =>
      have := (hq.ident hjn).1
      rw [h (hq.op ho)] at this
      cases this
  | abp a hc hk ho' => rw [ho'] at ho; cases ho
  | otaa hc hj hj' hno hk => exact hj
  | join f buf hj hc hk ho' hev => rw [ho'] at ho; cases ho

theorem otaa_off_time (a day : Nat) : u32 (a * otaaFactor day) < UINT32_MAX := by
  have : otaaFactor day % 4 = 0 := by
    unfold otaaFactor
    split
    · rfl
    · split <;> rfl
  generalize otaaFactor day = f at *
  have h4 : (a * f) % 4 = 0 := by rw [Nat.mul_mod, this]; simp
  generalize a * f = x at *
  show x % 4294967296 < 4294967295
  omega

theorem charged_global (m : Mac) (hop : m.op = .joining) (hz : m.band GLOBAL = 0) : charged m GLOBAL < UINT32_MAX := by
  rw [charged_eq]
  unfold chargeAll
  rw [if_pos (Or.inl hop), if_pos hop]
  have hb : chargeBand m.ctx.region m.tx.freq m.tx.airTime m.band GLOBAL = 0 := by
    unfold chargeBand
    cases hf : m.ctx.region.getBand m.tx.freq with
    | none => exact hz
    | some b =>
      have hne : b ≠ GLOBAL := by
        unfold Region.getBand at hf
        intro h
        rw [h] at hf
        revert hf
        generalize m.tx.freq = f
        cases m.ctx.region <;> simp only [] <;> repeat' split
        all_goals simp [GLOBAL]
      show addOffTime m.band b _ GLOBAL = 0
      unfold addOffTime
      split <;> simp [upd, Ne.symm hne, hz]
  have ho := otaa_off_time m.tx.airTime m.day
  generalize chargeBand m.ctx.region m.tx.freq m.tx.airTime m.band = band at *
  generalize u32 (m.tx.airTime * otaaFactor m.day) = off at *
  unfold addOffTime
  rw [hb]
  rw [if_neg (Nat.not_lt_zero _)]
  show (if GLOBAL = GLOBAL then u32 (0 + off) else band GLOBAL) < _
  rw [if_pos rfl, Nat.zero_add]
  exact Nat.lt_of_le_of_lt (Nat.mod_le _ _) ho

theorem GlobalOk.step {cfg : Cfg} {m : Mac} (h : GlobalOk m) (ho : OpOk m) (hd : DataOp m → m.ctx.joined = true)
    (e : Env) (c : Call) : GlobalOk (LDL.step cfg m e c).1 := by
  refine ⟨unjoined_step h.unjoined, ?_, ?_⟩
  · intro hj
    have hk := step_keys cfg e m c h.unjoined
    by_cases hf : c = .forget
    · subst hf
      show (LDL.forget m).band GLOBAL < _
      have hj : (LDL.forget m).ctx.joined = false := hj
      have hcan : (LDL.cancel m).band = m.band ∧ (LDL.cancel m).ctx = m.ctx := by
        rcases cancel_shape m with ⟨_, h⟩ | ⟨_, h⟩ <;> rw [h] <;> exact ⟨rfl, rfl⟩
      unfold LDL.forget at hj ⊢
      dsimp only at hj ⊢
      by_cases hjc : (LDL.cancel m).ctx.joined = true
      · rw [if_pos hjc]
        show (upd (LDL.cancel m).band GLOBAL 0) GLOBAL < _
        simp [upd, UINT32_MAX]
      · rw [if_neg hjc]
        rw [hcan.1]
        rw [hcan.2] at hjc
        exact h.bound (by simpa using hjc)
    have hmj : m.ctx.joined = false := by
      cases hmj : m.ctx.joined with
      | false => rfl
      | true =>
        exfalso
        cases hk with
        | quiet hq hr =>
          rcases hr hmj with h' | h'
          · rw [hj] at h'; cases h'
          · exact hf h'
        | abp a hc hk ho' =>
          subst hc
          change (LDL.abp m a).1.ctx.joined = false at hj
          unfold LDL.abp at hj
          rw [if_pos hmj] at hj
          rw [hmj] at hj; cases hj
        | otaa hc hj hj' hno hk => rw [hmj] at hj'; cases hj'
        | join f buf hj' hc hk ho' hev =>
          obtain ⟨_, _, _, _, _, h'⟩ := joinSession_shape cfg m f buf
          rw [hc, h'] at hj; cases hj
    have hb := h.bound hmj
    by_cases hc : c = .process
    · subst hc
      show (process cfg e m).band GLOBAL < _
      have ht := (ticked_global cfg e m).1
      rcases (process_clock cfg e m).1 with ⟨hch, hcl⟩ | ⟨_, hcl⟩ | ⟨_, _, hcl⟩ <;>
        simp only [Mac.clock, Prod.mk.injEq] at hcl
      · rw [hcl.2.2.2]
        have hop : m.op = .joining := by
          have := ho
          unfold OpOk at this
          rw [hch.1] at this
          simp only [opAllowed, Bool.or_eq_true, beq_iff_eq] at this
          rcases this with (h' | h') | h'
          · exact h'
          · have := hd (Or.inl h'); rw [hmj] at this; cases this
          · have := hd (Or.inr h'); rw [hmj] at this; cases this
        have hz := h.zero hop (Or.inr (Or.inr hch.1))
        have hop' : (ticked cfg e m).op = .joining := by
          obtain ⟨_, _, _, _, _, h', _⟩ := processBands_shape cfg e m
          unfold ticked
          rw [h']; exact hop
        exact charged_global _ hop' (by omega)
      · rw [hcl.2.2.2]; omega
      · rw [hcl.2.2.2]; simp [upd, UINT32_MAX]
    · obtain ⟨_, _, _, hcl⟩ := (step_api cfg e m c hc).clock
      rcases hcl with ⟨_, hcl⟩ | ⟨_, _, _, _, hcl⟩ | ⟨_, _, hcl⟩ | ⟨_, _, _, hcl⟩
      · rw [hcl]; exact hb
      · rw [hcl]; exact hb
      · rw [hcl]; simp [upd, UINT32_MAX]
      · rw [hcl]; simp [upd, UINT32_MAX]
  · intro hop hs
    by_cases hc : c = .process
    · subst hc
      obtain ⟨ev, lag, m1, m2, hp, hcl, _, hdd, heq⟩ := process_parts cfg e m
      have hb : m1.band GLOBAL ≤ m.band GLOBAL := by
        rw [Mac.clock_band hcl]; exact (ticked_global cfg e m).1
      obtain ⟨_, _, _, _, _, _, _, _, _, hme⟩ := hp.eq
      have hst : m1.state = m.state := by rw [hme]
      have hop1 : m1.op = m.op := by rw [hme]
      change (process cfg e m).op = _ at hop
      change Sending (process cfg e m) at hs
      show (process cfg e m).band GLOBAL = 0
      obtain ⟨p, t, hsn⟩ := setNextBandEvent_shape cfg e m2
      rw [heq, hsn] at hop hs ⊢
      change m2.op = _ at hop
      change Sending m2 at hs
      show m2.band GLOBAL = 0
      rcases hdd with ⟨_, rfl⟩ | ⟨_, hdd⟩
      · have := h.zero (hop1 ▸ hop) (by unfold Sending at hs ⊢; rw [← hst]; exact hs)
        omega
      · obtain ⟨g1, g2, g3⟩ := hdd.intoSending (hp.opOk ho) hop hs
        rw [g2]
        rcases g3 with g3 | g3
        · have := h.zero (hop1 ▸ g1) (by unfold Sending at g3 ⊢; rw [← hst]; exact g3)
          omega
        · exact g3.2
    · have hapi := step_api cfg e m c hc
      have hnot : m.op = .none → ¬ Sending m := by
        intro hn hs
        unfold OpOk at ho
        rw [hn] at ho
        rcases hs with hs | hs | hs <;> rw [hs] at ho <;> cases ho
      have hcan : (LDL.cancel m).op = .none := by
        rcases cancel_shape m with ⟨_, h⟩ | ⟨_, h⟩ <;> rw [h]
      generalize (LDL.step cfg m e c).1 = m' at *
      generalize (LDL.step cfg m e c).2 = st at *
      cases hapi
      case otaa hno _ x hx s t hst =>
        rcases hst with ⟨_, rfl, _⟩ | ⟨_, rfl, _⟩
        · simp [Sending] at hs
        · exact absurd hs (hnot hno)
      case data m1 hm1 =>
        obtain ⟨_, _, op, s, t, h', hopp, _⟩ := sendData_shape cfg e m1 _ _ _ _ _ _
        rw [h'] at hop
        have hop : op = .joining := hop
        rcases hopp with h' | ⟨h', _⟩ <;> rw [h'] at hop <;> cases hop
      case forget =>
        obtain ⟨_, _, _, _, _, h'⟩ := forget_shape m
        rw [h'] at hop
        exact absurd (hcan.symm.trans hop) (by simp)
      case cancel => exact absurd (hcan.symm.trans hop) (by simp)
      case entropyIdle => cases hop
      case entropyLater => cases hop
      case abp hno _ => exact absurd (hno.symm.trans hop) (by simp)
      all_goals exact h.zero hop hs

theorem Spec.Reachable.globalOk {cfg : Cfg} {m : Mac} (h : Spec.Reachable cfg m) : GlobalOk m := by
  induction h with
  | init region arg e _ _ =>
    obtain ⟨h1, h2, _⟩ := init_opOk cfg region arg e
    obtain ⟨c, k, h, _⟩ := init_fields cfg region arg e
    refine ⟨fun h' => ?_, fun _ => ?_, fun h' => ?_⟩
    · rw [h2] at h'; cases h'
    · rw [h]; show upd (fun _ => 0) GLOBAL (msToTime 0) GLOBAL < UINT32_MAX; decide
    · rw [h2] at h'; cases h'
  | step e c h _ ih => exact ih.step h.reach.opOk (fun hd => (h.inData hd).joined) e c

theorem carried_congr {m m' : Mac} (hs : m'.state = m.state) (ha : m'.timerA = m.timerA) (hb : m'.timerB = m.timerB)
    (hn : m.state ≠ .waitOTAA) : Carried m' ↔ Carried m := by
  unfold Carried
  rw [hs, ha, hb]
  cases h : m.state <;> simp_all

theorem setNextBandEvent_carried (cfg : Cfg) (e : Env) (m : Mac)
    (h : Carried m ∨ m.state = .waitOTAA ∧ 0 < m.band GLOBAL) (hm : m.state = .waitOTAA → m.band GLOBAL < UINT32_MAX)
    (h0 : m.state = .waitOTAA → m.timerA.armed = false → 0 < m.band GLOBAL) :
    Carried (setNextBandEvent cfg e m) := by
  obtain ⟨p, t, hsn⟩ := setNextBandEvent_shape cfg e m
  by_cases hw : m.state = .waitOTAA
  · have hs : (setNextBandEvent cfg e m).state = .waitOTAA := by rw [hsn]; exact hw
    have ha : (setNextBandEvent cfg e m).timerA = m.timerA := by rw [hsn]
    have hb : (setNextBandEvent cfg e m).band = m.band := by rw [hsn]
    unfold Carried
    rw [hs]
    show _ ∨ _
    rw [ha, hb]
    cases hta : m.timerA.armed with
    | true => exact Or.inl rfl
    | false => exact Or.inr ⟨h0 hw hta, setNextBandEvent_armed cfg e m (h0 hw hta) (hm hw)⟩
  · rw [carried_congr (m := m) (by rw [hsn]) (by rw [hsn]) (by rw [hsn]) hw]
    rcases h with h | h
    · exact h
    · exact absurd h.1 hw

/-- In which state a device is before it waits for the off-time of a join. -/
theorem Disp.intoWaitOTAA {cfg : Cfg} {e : Env} {ev : Sme} {lag : Nat} {m m' : Mac} (h : Disp cfg e ev lag m m') (ho : OpOk m)
    (hs : m'.state = .waitOTAA) : m'.op = .joining := by
  have := h.opOk ho
  unfold OpOk at this
  rw [hs] at this
  simpa [opAllowed] using this

theorem process_carried {cfg : Cfg} (e : Env) {m : Mac} (hr : Spec.Reachable cfg m) (h : Carried m) (hl : ¬ Overtaken e m) :
    Carried (process cfg e m) := by
  have hr' : Spec.Reachable cfg (process cfg e m) := .step e .process hr trivial
  have hg := hr'.globalOk
  have hop := hr'.reach.opOk
  obtain ⟨ev, lag, m1, m2, hp, hcl, hready, hd, heq⟩ := process_parts cfg e m
  rw [heq] at hg hop ⊢
  obtain ⟨p, t, hsn⟩ := setNextBandEvent_shape cfg e m2
  have hlt : m2.state = .waitOTAA → m2.band GLOBAL < UINT32_MAX := by
    intro hs
    rw [hsn] at hg hop
    have h1 : m2.op = .joining := by
      have hop : opAllowed m2.state m2.op = true := hop
      rw [hs] at hop
      simpa [opAllowed] using hop
    exact hg.bound (hg.unjoined h1)
  rcases hd with ⟨he, rfl⟩ | ⟨hne, hd⟩
  · obtain ⟨_, _, _, _, _, _, _, _, _, hme⟩ := hp.eq
    have hst : m2.state = m.state := by rw [hme]
    have hA : m2.timerA = m.timerA := by
      rcases hp.timerA with ⟨h', _⟩ | ⟨_, h'⟩
      · rw [he] at h'; cases h'
      · exact h'
    have hB : m2.timerB = m.timerB := by
      rcases hp.timerB with ⟨h', _⟩ | ⟨_, h'⟩
      · rw [he] at h'; cases h'
      · exact h'
    have hw : m2.state = .waitOTAA → m2.timerA.armed = false → 0 < m2.band GLOBAL := by
      intro hs ha
      unfold Carried at h
      rw [← hst, hs] at h
      change m.timerA.armed = true ∨ _ at h
      rw [← hA, ha] at h
      have h : 0 < m.band GLOBAL := by simp at h; exact h.1
      have htg := (ticked_global cfg e m).2 h
      rw [hready he] at htg
      rw [Mac.clock_band hcl]
      have : (ticked cfg e m).band GLOBAL ≠ 0 := fun h0 => by have := htg h0; cases this
      omega
    refine setNextBandEvent_carried cfg e m2 ?_ hlt hw
    by_cases hs : m2.state = .waitOTAA
    · cases ha : m2.timerA.armed with
      | false => exact Or.inr ⟨hs, hw hs ha⟩
      | true => left; unfold Carried; rw [hs]; exact Or.inl ha
    · exact Or.inl ((carried_congr hst hA hB (hst ▸ hs)).2 h)
  · have hc := hd.carried hp (hp.opOk hr.reach.opOk) h hl
    refine setNextBandEvent_carried cfg e m2 hc hlt ?_
    intro hs ha
    rcases hc with hc | hc
    · unfold Carried at hc
      rw [hs] at hc
      change m2.timerA.armed = true ∨ _ at hc
      rw [ha] at hc
      simp at hc
      exact hc.1
    · exact hc.2

/-- A call after which the device may not go on: cancelling after the radio was started. -/
def Cuts (m : Mac) (c : Call) : Prop :=
  (c = .cancel ∨ c = .forget) ∧ m.state ≠ .init ∧ m.state ≠ .radioReset ∧ m.state ≠ .radioBoot

theorem Api.carried {cfg : Cfg} {e : Env} {m m' : Mac} {c : Call} {st : Status} (h : Api cfg e m c m' st)
    (ho : OpOk m) (hc : Carried m) (hn : ¬ Cuts m c) : Carried m' := by
  have hcan : (c = .cancel ∨ c = .forget) → (LDL.cancel m).state = m.state ∧ (LDL.cancel m).timerA = m.timerA ∧
      (LDL.cancel m).timerB = m.timerB ∧ m.state ≠ .waitOTAA := by
    intro hc
    rcases cancel_shape m with ⟨h1, h⟩ | ⟨h1, h⟩
    · rw [h]
      exact ⟨rfl, rfl, rfl, by rcases h1 with h1 | h1 | h1 <;> rw [h1] <;> decide⟩
    · exfalso
      refine hn ⟨hc, ?_⟩
      simpa [not_or] using h1
  have hnone : m.op = .none → m.state ≠ .waitOTAA := by
    intro h hs
    unfold OpOk at ho
    rw [hs, h] at ho
    cases ho
  cases h
  case entropyIdle => exact .of_timerA rfl (by simp)
  case otaa hno _ x hx s t hst =>
    obtain ⟨k, hk⟩ := deriveJoinKeys_shape cfg { m with trials := 0, day := 60 * 60 * 24 * timeTPS }
    obtain ⟨dn, b, bl, t', h⟩ := nextJoinRequest_shape cfg e
      (Ops.deriveJoinKeys cfg { m with trials := 0, day := 60 * 60 * 24 * timeTPS })
    have hB : x.timerB = m.timerB := by rw [hx, h, hk]
    rcases hst with ⟨_, rfl, rfl⟩ | ⟨_, rfl, rfl⟩
    · exact .of_timerA rfl (by simp)
    · refine (carried_congr (m := m) ?_ ?_ ?_ (hnone hno)).2 hc
      · rfl
      · rfl
      · exact hB
  case data hno _ _ _ _ _ _ _ m1 hm1 =>
    obtain ⟨_, _, op, s, t, h', hopp, hst⟩ := sendData_shape cfg e m1 _ _ _ _ _ _
    rw [h']
    have e1 : m1.state = m.state := by rw [hm1]
    have e2 : m1.timerA = m.timerA := by rw [hm1]
    have e3 : m1.timerB = m.timerB := by rw [hm1]
    rcases hst with ⟨_, rfl, rfl⟩ | ⟨_, rfl, rfl⟩
    · exact .of_timerA rfl (by simp)
    · refine (carried_congr (m := m) ?_ ?_ ?_ (hnone hno)).2 hc
      · exact e1
      · exact e2
      · exact e3
  case forget =>
    obtain ⟨h1, h2, h3, h4⟩ := hcan (Or.inr rfl)
    obtain ⟨_, _, _, _, _, h'⟩ := forget_shape m
    rw [h']
    refine (carried_congr (m := m) ?_ ?_ ?_ h4).2 hc
    · exact h1
    · exact h2
    · exact h3
  case cancel =>
    obtain ⟨h1, h2, h3, h4⟩ := hcan (Or.inl rfl)
    refine (carried_congr (m := m) ?_ ?_ ?_ h4).2 hc
    · exact h1
    · exact h2
    · exact h3
  case abp hno _ =>
    refine (carried_congr (m := m) ?_ ?_ ?_ (hnone hno)).2 hc
    · rfl
    · rfl
    · rfl
  all_goals exact hc

end LDL
