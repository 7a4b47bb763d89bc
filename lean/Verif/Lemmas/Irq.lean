import Verif.Spec.Irq
import Verif.Lemmas.Sx126xLoop

namespace LDL
namespace Irq
open LDL.Spec LDL.Spec.Sx126x LDL.Sx126x LDL.MbedIrq LDL.Spec.Irq

theorem awaited_append (l : List Event) (ev : Event) : awaited (l ++ [ev]) =
    match ev with | .transmit .. | .receive .. => true | .receiveEntropy => false | _ => awaited l := by
  unfold awaited
  rw [List.foldl_append]
  rfl

theorem perform_busOps (d : Driver) (c : Chip) (busy : Nat → Bool) (ev : Event) :
    perform d c busy ev = (busOps d c busy ev).map fun x => (x.1, c.run x.2) := by
  cases ev <;> rfl

theorem obey_irq_zero (c : Chip) (op : Nat) (a : Bytes) (h : c.irq = 0) : (c.obey op a).irq = 0 := by
  unfold Chip.obey
  simp only
  repeat' split
  all_goals first | rfl | exact h | (show c.irq &&& _ = 0; rw [h, Nat.zero_and])

theorem exec_irq_zero (c : Chip) (o : BusOp) (h : c.irq = 0) : (c.exec o).irq = 0 := by
  cases o with
  | mode m =>
    show (c.setIo m).irq = 0
    unfold Chip.setIo
    split
    · rfl
    · exact h
  | write op data =>
    show (c.write (op ++ data)).irq = 0
    unfold Chip.write
    split
    · exact h
    · split
      · exact h
      · exact obey_irq_zero _ _ _ h
  | read op n =>
    show (if c.io = .reset then c else c.woken).irq = 0
    split <;> exact h

theorem run_irq_zero (l : List BusOp) (c : Chip) (h : c.irq = 0) : (c.run l).irq = 0 := by
  induction l generalizing c with
  | nil => exact h
  | cons o l ih => exact ih _ (exec_irq_zero c o h)

theorem dio1_zero {c : Chip} (h : c.irq = 0) : dio1 c = false := by
  unfold dio1
  rw [h, Nat.zero_and]
  rfl

/-- The call enables the interrupt. -/
def Enables : BusOp → Bool
  | .mode .rx | .mode .txRfo | .mode .txBoost => true
  | _ => false

/-- An active input is pending. -/
def Sensed (w : Wl) : Prop := dio1 w.chip = true → w.nvic.pending = true

theorem sense_sensed (w : Wl) : Sensed w.sense := by
  intro h
  show (w.nvic.pending || dio1 w.chip) = true
  have : dio1 w.chip = true := h
  rw [this, Bool.or_true]

theorem runs_sensed {w w' : Wl} {l : List BusOp} (h : Wl.Runs w l w') (hs : Sensed w) : Sensed w' := by
  induction h with
  | nil w => exact hs
  | op w o _ ih => exact ih (sense_sensed _)
  | irq w _ _ ih => exact ih (sense_sensed _)

theorem runs_chip {w w' : Wl} {l : List BusOp} (h : Wl.Runs w l w') : w'.chip = w.chip.run l := by
  induction h with
  | nil w => rfl
  | op w o _ ih => exact ih
  | irq w _ _ ih => exact ih

/-- Ready to be told. -/
def Armed (w : Wl) : Prop := w.nvic.enabled = true ∧ w.nvic.pending = false

theorem op_zero (w : Wl) (o : BusOp) (h : w.chip.irq = 0) (hd : w.due = false) :
    (w.op o).nvic.calls = w.nvic.calls ∧ (w.op o).due = false ∧ (Armed w → Armed (w.op o)) ∧
      (Enables o = true → Armed (w.op o)) := by
  have hz : dio1 (w.chip.exec o) = false := dio1_zero (exec_irq_zero _ o h)
  have key : (w.op o).nvic = Wl.control w.nvic o := by
    show ({ Wl.control w.nvic o with pending := (Wl.control w.nvic o).pending || dio1 (w.chip.exec o) } : Nvic) = _
    rw [hz, Bool.or_false]
  unfold Wl.due Armed at *
  rw [key]
  cases o with
  | mode m => cases m <;> simp_all [Wl.control, chipSetMode, enableIrq, Enables]
  | write op data => simp_all [Wl.control, Enables]
  | read op n => simp_all [Wl.control, Enables]

/-- While nothing is pending at the chip the handler is not called. -/
theorem runs_zero {w w' : Wl} {l : List BusOp} (h : Wl.Runs w l w') (hz : w.chip.irq = 0) (hd : w.due = false) :
    w'.nvic.calls = w.nvic.calls ∧ w'.due = false ∧ (Armed w → Armed w') ∧ (l.any Enables = true → Armed w') := by
  induction h with
  | nil w => exact ⟨rfl, hd, id, fun h => by cases h⟩
  | op w o _ ih =>
    obtain ⟨h1, h2, h3, h4⟩ := op_zero w o hz hd
    obtain ⟨g1, g2, g3, g4⟩ := ih (exec_irq_zero _ o hz) h2
    refine ⟨g1.trans h1, g2, fun h => g3 (h3 h), fun h => ?_⟩
    rw [List.any_cons, Bool.or_eq_true] at h
    rcases h with h | h
    · exact g3 (h4 h)
    · exact g4 h
  | irq w hd' _ ih => rw [hd] at hd'; cases hd'

/-- While the interrupt is off the handler is not called. -/
theorem runs_off {w w' : Wl} {l : List BusOp} (h : Wl.Runs w l w') (ho : w.nvic.enabled = false) (hl : l.any Enables = false) :
    w'.nvic.calls = w.nvic.calls ∧ w'.nvic.enabled = false := by
  induction h with
  | nil w => exact ⟨rfl, ho⟩
  | op w o _ ih =>
    rw [List.any_cons, Bool.or_eq_false_iff] at hl
    have key : (w.op o).nvic.calls = w.nvic.calls ∧ (w.op o).nvic.enabled = false := by
      cases o with
      | mode m =>
        have hm := hl.1
        cases m <;> first | exact ⟨rfl, ho⟩ | exact absurd hm (by decide)
      | write op data => exact ⟨rfl, ho⟩
      | read op n => exact ⟨rfl, ho⟩
    obtain ⟨g1, g2⟩ := ih key.2 hl.2
    exact ⟨g1.trans key.1, g2⟩
  | irq w hd _ ih =>
    unfold Wl.due at hd
    rw [ho] at hd
    cases hd

/-- The event starts an operation of the chip. -/
def Starts : Event → Bool
  | .transmit .. | .receive .. | .receiveEntropy => true
  | _ => false

theorem any_sub {l l' : List BusOp} (h : l' ⊆ l) (hl : l.any Enables = false) : l'.any Enables = false := by
  rw [List.any_eq_false] at *
  exact fun x hx => hl x (h hx)

theorem each_sub (busy : Nat → Bool) (l : List BusOp) (i : Nat) : each busy i l ⊆ l := (each_sublist busy l i).subset

theorem setModeOps_quiet (d : Driver) (mode : RadioMode) (ops : List BusOp) (h : setModeOps d mode = some ops) :
    ops.any Enables = false := by
  unfold setModeOps at h
  (repeat' split at h) <;> first | cases h | skip
  all_goals first | rfl | skip
  all_goals
    unfold wakeOps switchOps xtalOps
    (repeat' split) <;> rfl

/-- Only operations enable the interrupt. -/
theorem quiet_ops {d d' : Driver} {c : Chip} {busy : Nat → Bool} {ev : Event} {ops : List BusOp} (hs : Starts ev = false)
    (h : busOps d c busy ev = some (d', ops)) : ops.any Enables = false := by
  cases ev
  case setMode mode =>
    have h : setMode d mode busy = some (d', ops) := h
    unfold setMode at h
    obtain ⟨o, h1, h2⟩ := Option.map_eq_some_iff.1 h
    cases h2
    exact any_sub (each_sub busy o 0) (setModeOps_quiet d mode o h1)
  case transmit => cases hs
  case receive => cases hs
  case receiveEntropy => cases hs
  case readEntropy =>
    cases Option.some.inj h
    exact any_sub (attempt_prefix busy _ 0).subset rfl
  case readBuffer =>
    cases Option.some.inj h
    exact any_sub (attempt_prefix busy _ 0).subset rfl
  case getStatus =>
    cases Option.some.inj h
    exact any_sub (attempt_prefix busy _ 0).subset rfl
  all_goals
    cases Option.some.inj h
    rfl

theorem transmit_enables (d : Driver) (s : TxSetting) (data : Bytes) : (transmitOps d s data).any Enables = true := by
  unfold transmitOps
  have : (Sx126x.setPower d (s16 (s.eirp - d.txGain))).any Enables = true := by
    unfold Sx126x.setPower
    simp only
    split <;> rfl
  rw [List.any_append, List.any_append, this]
  simp

theorem receive_enables (d : Driver) (s : RxSetting) : (receiveOps d s).any Enables = true := by
  unfold receiveOps
  rw [List.append_assoc]
  rfl

/-- Between two events an operation has not ended, or its end has been signalled. -/
structure Wait (w : Wl) : Prop where
  mask : w.chip.irqMask ≠ 0
  dio : w.chip.dio1Mask = w.chip.irqMask
  armed : w.chip.mode = .rx ∨ w.chip.mode = .tx → Armed w

/-- Chip, interrupt controller and counters after a history that ended in phase `p`. -/
structure Inv (l : List Event) (p : Phase) (w : Wl) (k : Nat) : Prop where
  count : k = w.nvic.calls + (if w.due then 1 else 0)
  sensed : Sensed w
  unknown : p = .unknown → w.nvic.enabled = false ∧ awaited l = false
  wait : p = .receiving ∨ p = .transmitting → if awaited l then Wait w else w.chip.irqMask = 0

theorem acts_last {c c' : Chip} (h : c.Acts c') : c'.last = c.last := by cases h <;> rfl

theorem acts_mode {c c' : Chip} (h : c.Acts c') : (c.mode = .rx ∨ c.mode = .tx) ∧ c'.mode = .standbyRc := by
  cases h
  · exact ⟨Or.inr ‹_›, rfl⟩
  · exact ⟨Or.inl ‹_›, rfl⟩
  · exact ⟨Or.inl ‹_›, rfl⟩

/-- Phases the chip can act in. -/
theorem acts_phase {d : Driver} {c c' : Chip} {p : Phase} (h : Sx126x.In d c p) (ha : c.Acts c') :
    p = .unknown ∨ p = .receiving ∨ p = .transmitting := by
  have hm := (acts_mode ha).1
  have hf := h.fits
  cases p
  · exact Or.inl rfl
  · rw [hf.2] at hm; rcases hm with h | h <;> cases h
  · rw [hf.2.2] at hm; rcases hm with h | h <;> cases h
  · rw [hf.2.2] at hm; rcases hm with h | h <;> cases h
  · rcases hf.2.2.2 with h | h <;> rw [h] at hm <;> rcases hm with h | h <;> cases h
  · exact Or.inr (Or.inl rfl)
  · rcases hf.2.2.2 with h | h <;> rw [h] at hm <;> rcases hm with h | h <;> cases h
  · exact Or.inr (Or.inr rfl)
  · rw [hf.2.2.2] at hm; rcases hm with h | h <;> cases h

/-- What is pending while an operation goes on, and after it. -/
theorem pending_of {d : Driver} {c : Chip} {p : Phase} (h : Sx126x.In d c p) (hp : p = .receiving ∨ p = .transmitting) :
    (c.irqMask = 0 → c.irq = 0) ∧ ((c.mode = .rx ∨ c.mode = .tx) → c.irq = 0) ∧
    (c.irqMask ≠ 0 → ¬ (c.mode = .rx ∨ c.mode = .tx) → c.irq &&& c.irqMask ≠ 0) := by
  have hf := h.fits
  rcases hp with rfl | rfl
  · rcases hf.2.2 with ⟨k1, k2, _⟩ | ⟨k1, _, k3⟩
    · exact ⟨fun _ => k2, fun _ => k2, fun h => absurd k1 h⟩
    · rw [k1]
      refine ⟨fun h => absurd h (by decide), fun h => ?_, fun _ h => ?_⟩
      · rcases k3 with k3 | k3
        · exact k3.2
        · rw [k3.1] at h; rcases h with h | h <;> cases h
      · rcases k3 with k3 | k3
        · exact absurd (Or.inl k3.1) h
        · rcases k3.2 with e | e <;> rw [e] <;> decide
  · obtain ⟨k1, k3⟩ := hf.2.2
    rw [k1]
    refine ⟨fun h => absurd h (by decide), fun h => ?_, fun _ h => ?_⟩
    · rcases k3 with k3 | k3
      · exact k3.2
      · rw [k3.1] at h; rcases h with h | h <;> cases h
    · rcases k3 with k3 | k3
      · exact absurd (Or.inr k3.1) h
      · rw [k3.2]; decide

theorem mask_last {c c' : Chip} (h : c'.last = c.last) : c'.irqMask = c.irqMask ∧ c'.dio1Mask = c.dio1Mask := by
  unfold Chip.irqMask Chip.dio1Mask Chip.arg
  rw [h]
  exact ⟨rfl, rfl⟩

theorem due_off {w : Wl} (h : w.nvic.enabled = false) : w.due = false := by
  unfold Wl.due
  rw [h]
  rfl

theorem become_pending (w : Wl) (c : Chip) : (w.become c).nvic.pending = (w.nvic.pending || dio1 c) := rfl
theorem become_enabled (w : Wl) (c : Chip) : (w.become c).nvic.enabled = w.nvic.enabled := rfl

theorem Inv.acts {l : List Event} {p : Phase} {d : Driver} {w : Wl} {k : Nat} {c : Chip} (h : Inv l p w k)
    (hi : Sx126x.In d w.chip p) (ha : w.chip.Acts c) : Inv l p (w.become c) (if awaited l then k + 1 else k) := by
  have hi' := (hi.act ha).1
  obtain ⟨m1, m2⟩ := mask_last (acts_last ha)
  obtain ⟨hm, hm'⟩ := acts_mode ha
  have hn : ¬ (c.mode = .rx ∨ c.mode = .tx) := by rw [hm']; rintro (h | h) <;> cases h
  have hc := h.count
  rcases acts_phase hi ha with rfl | hp
  · obtain ⟨h1, h2⟩ := h.unknown rfl
    refine ⟨?_, sense_sensed _, fun _ => ⟨h1, h2⟩, fun h => by rcases h with h | h <;> cases h⟩
    rw [h2, due_off (w := w.become c) h1]
    rw [due_off h1] at hc
    exact hc
  · obtain ⟨q1, q2, q3⟩ := pending_of hi' hp
    have hw := h.wait hp
    have hu : p ≠ .unknown := by rintro rfl; rcases hp with h | h <;> cases h
    by_cases hwait : awaited l = true
    · rw [if_pos hwait] at hw
      obtain ⟨a1, a2⟩ := hw.armed hm
      have hd : dio1 c = true := by
        have := q3 (by rw [m1]; exact hw.mask) hn
        unfold dio1
        rw [m2, hw.dio, ← m1]
        exact bne_iff_ne.2 this
      refine ⟨?_, sense_sensed _, fun h => absurd h hu, fun _ => ?_⟩
      · have e1 : w.due = false := by unfold Wl.due; rw [a2, Bool.and_false]
        have e2 : (w.become c).due = true := by
          unfold Wl.due
          rw [become_pending, become_enabled, a1, hd, Bool.or_true]
          rfl
        rw [e1] at hc
        rw [if_pos hwait, e2, hc]
        rfl
      · rw [if_pos hwait]
        exact ⟨by show c.irqMask ≠ 0; rw [m1]; exact hw.mask, by show c.dio1Mask = c.irqMask; rw [m1, m2]; exact hw.dio,
          fun h => absurd h hn⟩
    · rw [if_neg hwait] at hw
      have hz : c.irq = 0 := q1 (by rw [m1]; exact hw)
      refine ⟨?_, sense_sensed _, fun h => absurd h hu, fun _ => ?_⟩
      · have e : (w.become c).due = w.due := by
          unfold Wl.due
          rw [become_pending, become_enabled, dio1_zero hz, Bool.or_false]
        rw [if_neg hwait, e]
        exact hc
      · rw [if_neg hwait]
        show c.irqMask = 0
        rw [m1]; exact hw

theorem Inv.irq {l : List Event} {p : Phase} {w : Wl} {k : Nat} (h : Inv l p w k) (hd : w.due = true) : Inv l p w.irq k := by
  have hc := h.count
  rw [hd] at hc
  refine ⟨?_, sense_sensed _, fun hp => ?_, fun hp => ?_⟩
  · rw [due_off (w := w.irq) rfl]
    exact hc
  · have := (h.unknown hp).1
    unfold Wl.due at hd
    rw [this] at hd
    cases hd
  · have hw := h.wait hp
    split
    · next ha =>
      rw [if_pos ha] at hw
      refine ⟨hw.mask, hw.dio, fun h => ?_⟩
      have := (hw.armed h).2
      unfold Wl.due at hd
      rw [this, Bool.and_false] at hd
      cases hd
    · next ha =>
      rw [if_neg ha] at hw
      exact hw

theorem starts_phase {p p' : Phase} {ev : Event} (ha : accepts p ev = some p') (hs : Starts ev = true) :
    p = .rx ∨ p = .tx := by
  cases ev <;> first | cases hs | skip
  · exact Or.inr (Option.ite_none_right_eq_some.1 ha).1
  · exact Or.inl (Option.ite_none_right_eq_some.1 ha).1
  · exact Or.inl (Option.ite_none_right_eq_some.1 ha).1

/-- Where something can be pending at the chip. -/
theorem irq_phase {d : Driver} {c : Chip} {p : Phase} (h : Sx126x.In d c p) (hz : c.irq ≠ 0) :
    p = .unknown ∨ p = .receiving ∨ p = .transmitting := by
  have hf := h.fits
  cases p
  · exact Or.inl rfl
  · exact absurd hf.1.irq hz
  · exact absurd hf.2.1.irq hz
  · exact absurd hf.2.1.irq hz
  · exact absurd hf.2.2.1 hz
  · exact Or.inr (Or.inl rfl)
  · exact absurd hf.2.2.1 hz
  · exact Or.inr (Or.inr rfl)
  · exact absurd hf.2.2.1 hz

/-- The handler is not called during an event. -/
theorem Inv.quiet {l : List Event} {p p' : Phase} {d d' : Driver} {w w' : Wl} {k : Nat} {ev : Event} {busy : Nat → Bool}
    {ops : List BusOp} (h : Inv l p w k) (hi : Sx126x.In d w.chip p) (hd : w.due = false) (ha : accepts p ev = some p')
    (hp : busOps d w.chip busy ev = some (d', ops)) (hr : Wl.Runs w ops w') :
    w'.nvic.calls = w.nvic.calls ∧ w'.due = false := by
  by_cases hz : w.chip.irq = 0
  · obtain ⟨h1, h2, _⟩ := runs_zero hr hz hd
    exact ⟨h1, h2⟩
  · have hph := irq_phase hi hz
    have hs : Starts ev = false := by
      cases hse : Starts ev
      · rfl
      · rcases starts_phase ha hse with rfl | rfl <;> rcases hph with h | h | h <;> cases h
    have hoff : w.nvic.enabled = false := by
      rcases hph with hph | hph
      · exact (h.unknown hph).1
      · obtain ⟨q1, q2, q3⟩ := pending_of hi hph
        have hw := h.wait hph
        have hm : w.chip.irqMask ≠ 0 := fun h => hz (q1 h)
        have hw : Wait w := by
          split at hw
          · exact hw
          · exact absurd hw hm
        have hpend : w.nvic.pending = true := by
          apply h.sensed
          unfold dio1
          rw [hw.dio]
          exact bne_iff_ne.2 (q3 hm fun h => hz (q2 h))
        unfold Wl.due at hd
        rw [hpend, Bool.and_true] at hd
        exact hd
    obtain ⟨h1, h2⟩ := runs_off hr hoff (quiet_ops hs hp)
    exact ⟨h1, due_off h2⟩

/-- Reads leave the chip as it is, but for waking it up. -/
theorem reads_keep {l : List BusOp} (h : ∀ o ∈ l, ∃ a n, o = .read a n) (c : Chip) :
    (c.run l).last = c.last ∧ (c.run l).irq = c.irq ∧
      ((c.run l).mode = .rx ∨ (c.run l).mode = .tx → c.mode = .rx ∨ c.mode = .tx) := by
  induction l generalizing c with
  | nil => exact ⟨rfl, rfl, id⟩
  | cons o l ih =>
    obtain ⟨a, n, rfl⟩ := h o (List.mem_cons_self ..)
    obtain ⟨h1, h2, h3⟩ := ih (fun x hx => h x (List.mem_cons_of_mem _ hx)) (c.exec (.read a n))
    have key : (c.exec (.read a n)).last = c.last ∧ (c.exec (.read a n)).irq = c.irq ∧
        ((c.exec (.read a n)).mode = .rx ∨ (c.exec (.read a n)).mode = .tx → c.mode = .rx ∨ c.mode = .tx) := by
      show (if c.io = .reset then c else c.woken).last = _ ∧ (if c.io = .reset then c else c.woken).irq = _ ∧
        ((if c.io = .reset then c else c.woken).mode = .rx ∨ (if c.io = .reset then c else c.woken).mode = .tx → _)
      split
      · exact ⟨rfl, rfl, id⟩
      · refine ⟨rfl, rfl, fun h => ?_⟩
        unfold Chip.woken at h
        simp only at h
        split at h
        · rcases h with h | h <;> cases h
        · exact h
    exact ⟨h1.trans key.1, h2.trans key.2.1, fun h => key.2.2 (h3 h)⟩

/-- The events in the middle of an operation. -/
theorem middle_reads {p p' : Phase} {ev : Event} (ha : accepts p ev = some p') (hp' : p' = .receiving ∨ p' = .transmitting)
    (hs : Starts ev = false) {d d' : Driver} {c : Chip} {busy : Nat → Bool} {ops : List BusOp}
    (hp : busOps d c busy ev = some (d', ops)) : p' = p ∧ (∀ o ∈ ops, ∃ a n, o = .read a n) ∧
      ∀ l, awaited (l ++ [ev]) = awaited l := by
  have pre : ∀ l : List BusOp, (∀ o ∈ l, ∃ a n, o = .read a n) → ∀ o ∈ attempt busy 0 l, ∃ a n, o = .read a n :=
    fun l h o ho => h o ((attempt_prefix busy l 0).subset ho)
  cases ev
  case setMode mode =>
    exfalso
    cases mode
    · cases ha; rcases hp' with h | h <;> cases h
    · have := (Option.ite_none_right_eq_some.1 ha).2; cases this; rcases hp' with h | h <;> cases h
    · have := (Option.ite_none_left_eq_some.1 ha).2; cases this; rcases hp' with h | h <;> cases h
    · have := (Option.ite_none_right_eq_some.1 ha).2; cases this; rcases hp' with h | h <;> cases h
    · have := (Option.ite_none_right_eq_some.1 ha).2; cases this; rcases hp' with h | h <;> cases h
    · have := (Option.ite_none_right_eq_some.1 ha).2; cases this; rcases hp' with h | h <;> cases h
  case transmit => cases hs
  case receive => cases hs
  case receiveEntropy => cases hs
  case readEntropy =>
    cases Option.some.inj hp
    refine ⟨(Option.some.inj (Option.ite_none_right_eq_some.1 ha).2).symm, pre _ ?_, fun l => awaited_append l _⟩
    intro o ho
    cases List.mem_singleton.1 ho
    exact ⟨_, _, rfl⟩
  case readBuffer =>
    cases Option.some.inj hp
    refine ⟨(Option.some.inj (Option.ite_none_right_eq_some.1 ha).2).symm, pre _ ?_, fun l => awaited_append l _⟩
    intro o ho
    simp only [List.mem_cons, List.not_mem_nil, or_false] at ho
    rcases ho with rfl | rfl | rfl <;> exact ⟨_, _, rfl⟩
  case getStatus =>
    cases Option.some.inj hp
    refine ⟨(Option.some.inj (Option.ite_none_right_eq_some.1 ha).2).symm, pre _ ?_, fun l => awaited_append l _⟩
    intro o ho
    cases List.mem_singleton.1 ho
    exact ⟨_, _, rfl⟩
  all_goals
    cases Option.some.inj hp
    exact ⟨(Option.some.inj ha).symm, fun o ho => absurd ho List.not_mem_nil, fun l => awaited_append l _⟩

/-- Which interrupts are recorded and signalled, after a history `l` that ended in an operation. -/
def Masks (l : List Event) (c : Chip) : Prop :=
  if awaited l then c.irqMask ≠ 0 ∧ c.dio1Mask = c.irqMask else c.irqMask = 0

theorem masks_event {l : List Event} {p p' : Phase} {d d' : Driver} {c : Chip} {ev : Event} {busy : Nat → Bool}
    {ops : List BusOp} (h : p = .receiving ∨ p = .transmitting → Masks l c) (hi : Sx126x.In d c p)
    (ha : accepts p ev = some p') (hf : Fine ev) (hb : Ready busy) (hp : busOps d c busy ev = some (d', ops))
    (hp' : p' = .receiving ∨ p' = .transmitting) : Masks (l ++ [ev]) (c.run ops) := by
  by_cases hs : Starts ev = true
  · unfold Masks
    rw [awaited_append]
    cases ev
    case transmit t s data =>
      obtain ⟨hpt, _⟩ := Option.ite_none_right_eq_some.1 ha
      subst hpt
      obtain ⟨em, hsent⟩ := Sx126x.transmit_sent d c s data (hi.any.io (by decide) (by decide)) hf.2.1 hf.1
        (by have := hi.any.gain; have := hf.2.2; omega)
      have e : ops = transmitOps d s data := by
        have := Option.some.inj hp
        have := congrArg Prod.snd this
        exact this.symm.trans (Sx126x.attempt_ready busy hb _ 0)
      rw [e]
      exact ⟨by rw [hsent.mask]; decide, by rw [hsent.mask, hsent.dio]⟩
    case receive t s =>
      obtain ⟨_, hsent⟩ := Sx126x.receive_opened d c s hf.2 hf.1
      have e : ops = receiveOps d s := by
        have := Option.some.inj hp
        have := congrArg Prod.snd this
        exact this.symm.trans (Sx126x.attempt_ready busy hb _ 0)
      rw [e]
      exact ⟨by rw [hsent.mask]; decide, by rw [hsent.mask, hsent.dio]⟩
    case receiveEntropy =>
      obtain ⟨_, hsent⟩ := Sx126x.noise_opened c
      have e : ops = noiseOps ++ [setRx 0] := by
        have := Option.some.inj hp
        have := congrArg Prod.snd this
        exact this.symm.trans (Sx126x.attempt_ready busy hb _ 0)
      rw [e]
      exact hsent.mask
    all_goals cases hs
  · obtain ⟨h1, h2, h3⟩ := middle_reads ha hp' (Bool.eq_false_iff.2 hs) hp
    subst h1
    unfold Masks
    rw [h3 l]
    obtain ⟨m1, m2⟩ := mask_last (reads_keep h2 c).1
    rw [m1, m2]
    exact h hp'

theorem unknown_event {p : Phase} {ev : Event} (ha : accepts p ev = some .unknown) (l : List Event) :
    Starts ev = false ∧ p = .unknown ∧ awaited (l ++ [ev]) = awaited l ∧
      ∀ (d : Driver) (c : Chip) (busy : Nat → Bool), busOps d c busy ev = some (d, []) := by
  cases ev
  case setMode mode =>
    exfalso
    cases mode
    · cases ha
    · have := (Option.ite_none_right_eq_some.1 ha).2; cases this
    · have := (Option.ite_none_left_eq_some.1 ha).2; cases this
    · have := (Option.ite_none_right_eq_some.1 ha).2; cases this
    · have := (Option.ite_none_right_eq_some.1 ha).2; cases this
    · have := (Option.ite_none_right_eq_some.1 ha).2; cases this
  case transmit => have := (Option.ite_none_right_eq_some.1 ha).2; cases this
  case receive => have := (Option.ite_none_right_eq_some.1 ha).2; cases this
  case receiveEntropy => have := (Option.ite_none_right_eq_some.1 ha).2; cases this
  case readEntropy => have := Option.ite_none_right_eq_some.1 ha; rw [this.1] at this; cases this.2
  case readBuffer => have := Option.ite_none_right_eq_some.1 ha; rw [this.1] at this; cases this.2
  case getStatus =>
    obtain ⟨h1, h2⟩ := Option.ite_none_right_eq_some.1 ha
    cases h2
    rcases h1 with h | h <;> cases h
  all_goals exact ⟨rfl, Option.some.inj ha, awaited_append l _, fun _ _ _ => rfl⟩

theorem Inv.event {l : List Event} {p p' : Phase} {d d' : Driver} {w w' : Wl} {k : Nat} {ev : Event} {busy : Nat → Bool}
    {ops : List BusOp} (h : Inv l p w k) (hi : Sx126x.In d w.chip p) (hd : w.due = false) (ha : accepts p ev = some p')
    (hf : Fine ev) (hb : Ready busy)
    (hp : busOps d w.chip busy ev = some (d', ops)) (hr : Wl.Runs w ops w') : Inv (l ++ [ev]) p' w' k := by
  obtain ⟨hcalls, hdue⟩ := h.quiet hi hd ha hp hr
  have hchip := runs_chip hr
  have hc := h.count
  rw [hd] at hc
  refine ⟨by rw [hdue, hcalls]; exact hc, runs_sensed hr h.sensed, fun hpu => ?_, fun hp' => ?_⟩
  · subst hpu
    have hse := unknown_event ha l
    obtain ⟨h1, h2⟩ := h.unknown hse.2.1
    exact ⟨(runs_off hr h1 (quiet_ops hse.1 hp)).2, by rw [hse.2.2.1]; exact h2⟩
  · have hm : Masks (l ++ [ev]) w'.chip := by
      rw [hchip]
      refine masks_event (fun hq => ?_) hi ha hf hb hp hp'
      have hw := h.wait hq
      unfold Masks
      split
      · next haw => rw [if_pos haw] at hw; exact ⟨hw.mask, hw.dio⟩
      · next haw => rw [if_neg haw] at hw; exact hw
    unfold Masks at hm
    split
    · next haw =>
      rw [if_pos haw] at hm
      refine ⟨hm.1, hm.2, fun hmode => ?_⟩
      by_cases hs : Starts ev = true
      · have hz : w.chip.irq = 0 := by
          by_cases hz : w.chip.irq = 0
          · exact hz
          · rcases starts_phase ha hs with rfl | rfl <;> rcases irq_phase hi hz with h | h | h <;> cases h
        obtain ⟨_, _, _, harm⟩ := runs_zero hr hz hd
        apply harm
        rw [awaited_append] at haw
        cases ev
        case transmit t s data =>
          have e : ops = transmitOps d s data := by
            have := Option.some.inj hp
            have := congrArg Prod.snd this
            exact this.symm.trans (Sx126x.attempt_ready busy hb _ 0)
          rw [e]
          exact transmit_enables d s data
        case receive t s =>
          have e : ops = receiveOps d s := by
            have := Option.some.inj hp
            have := congrArg Prod.snd this
            exact this.symm.trans (Sx126x.attempt_ready busy hb _ 0)
          rw [e]
          exact receive_enables d s
        case receiveEntropy => cases haw
        all_goals cases hs
      · obtain ⟨h1, h2, h3⟩ := middle_reads ha hp' (Bool.eq_false_iff.2 hs) hp
        subst h1
        have g3 := (reads_keep h2 w.chip).2.2
        rw [← hchip] at g3
        have hw := h.wait hp'
        rw [h3 l] at haw
        rw [if_pos haw] at hw
        obtain ⟨_, _, harm, _⟩ := runs_zero hr ((pending_of hi hp').2.1 (g3 hmode)) hd
        exact harm (hw.armed (g3 hmode))
    · next haw =>
      rw [if_neg haw] at hm
      exact hm

/-- Seen from the chip. -/
theorem plays_chip {B : (Nat → Bool) → Prop} {d : Driver} {w : Wl} {l : List Event} {d' : Driver} {w' : Wl} {k : Nat}
    (h : Wl.Plays B d w l d' w' k) : Sx126x.Plays B d w.chip l d' w'.chip := by
  induction h with
  | start => exact .start
  | acts _ ha ih => exact .acts ih ha
  | irq _ _ ih => exact ih
  | event _ _ ev busy hb hp hr ih =>
    refine .event ih ev busy hb ?_
    rw [perform_busOps, hp, runs_chip hr]
    rfl

theorem plays_inv {d : Driver} {w : Wl} {p : Phase} {l : List Event} {d' : Driver} {w' : Wl} {k : Nat}
    (h : Wl.Plays Ready d w l d' w' k) (hi : Sx126x.In d w.chip p) (h0 : Inv [] p w 0) {p' : Phase}
    (hf : follow p l = some p') (hfine : ∀ x ∈ l, Fine x) : Inv l p' w' k := by
  induction h generalizing p' with
  | start => cases hf; exact h0
  | acts hpl ha ih => exact (ih hf hfine).acts (Sx126x.plays_ready hi (plays_chip hpl) hf hfine).1 ha
  | irq _ hd ih => exact (ih hf hfine).irq hd
  | event hpl hd ev busy hb hp hr ih =>
    rw [follow_append] at hf
    obtain ⟨q, h1, h2⟩ := Option.bind_eq_some_iff.1 hf
    have ha : accepts q ev = some p' := by
      obtain ⟨q', g1, g2⟩ := Option.bind_eq_some_iff.1 h2
      cases g2
      exact g1
    have hfl := fun x hx => hfine x (List.mem_append_left _ hx)
    exact (ih h1 hfl).event (Sx126x.plays_ready hi (plays_chip hpl) h1 hfl).1 hd ha
      (hfine ev (List.mem_append_right _ (List.mem_singleton.2 rfl))) hb hp hr

/-! ### SX1261 and SX1262 -/

theorem pin_chip (l : List BusOp) (w : Pin) : (w.run l).chip = w.chip.run l := by
  induction l generalizing w with
  | nil => rfl
  | cons o l ih => exact ih (w.become (w.chip.exec o))

theorem pin_zero (l : List BusOp) (w : Pin) (hz : w.chip.irq = 0) : (w.run l).calls = w.calls := by
  induction l generalizing w with
  | nil => rfl
  | cons o l ih =>
    have hz' := exec_irq_zero _ o hz
    refine (ih (w.become (w.chip.exec o)) hz').trans ?_
    show (if !dio1 w.chip && dio1 (w.chip.exec o) then _ else w.calls) = w.calls
    rw [dio1_zero hz', Bool.and_false]
    rfl

/-- The call does not change which interrupts are signalled. -/
def Unmasked : BusOp → Bool
  | .write (op :: _) _ => op != 0x08
  | .write [] _ => false
  | _ => true

theorem and_sub (a b m : Nat) (h : a &&& m = 0) : a &&& b &&& m = 0 := by
  rw [Nat.and_assoc, Nat.and_comm b m, ← Nat.and_assoc, h, Nat.zero_and]

theorem obey_fall (c : Chip) (op : Nat) (a : Bytes) (ho : op ≠ 0x08) (h : dio1 c = false) : dio1 (c.obey op a) = false := by
  have h0 : c.irq &&& c.dio1Mask = 0 := by
    unfold dio1 at h
    exact bne_eq_false_iff_eq.1 h
  unfold Chip.obey
  simp only
  (repeat' split)
  · exact h
  · exact dio1_zero rfl
  · exact h
  · exact h
  · exact h
  · exact h
  · exact h
  · exact h
  · unfold dio1
    show ((c.irq &&& _) &&& c.dio1Mask != 0) = false
    rw [and_sub _ _ _ h0]
    rfl
  · exact h
  · exact h
  · exact h
  · unfold dio1 Chip.dio1Mask Chip.arg
    simp only [keep, if_neg (Ne.symm ho)]
    exact h

theorem exec_fall (c : Chip) (o : BusOp) (ho : Unmasked o = true) (h : dio1 c = false) : dio1 (c.exec o) = false := by
  cases o with
  | mode m =>
    show dio1 (c.setIo m) = false
    unfold Chip.setIo
    split
    · exact dio1_zero rfl
    · exact h
  | write op data =>
    cases op with
    | nil => cases ho
    | cons x op =>
      show dio1 (if c.io = .reset then c else c.woken.obey x.toNat (op ++ data)) = false
      split
      · exact h
      · refine obey_fall _ _ _ (fun hx => ?_) h
        have hx' : x = 0x08 := UInt8.toNat_inj.1 hx
        rw [hx'] at ho
        cases ho
  | read op n =>
    show dio1 (if c.io = .reset then c else c.woken) = false
    split <;> exact h

theorem pin_fall (l : List BusOp) (w : Pin) (hl : l.all Unmasked = true) : (w.run l).calls = w.calls := by
  induction l generalizing w with
  | nil => rfl
  | cons o l ih =>
    rw [List.all_cons, Bool.and_eq_true] at hl
    refine (ih (w.become (w.chip.exec o)) hl.2).trans ?_
    show (if !dio1 w.chip && dio1 (w.chip.exec o) then _ else w.calls) = w.calls
    cases hd : dio1 w.chip
    · rw [exec_fall _ o hl.1 hd]
      rfl
    · rfl

theorem all_sub {l l' : List BusOp} (h : l' ⊆ l) (hl : l.all Unmasked = true) : l'.all Unmasked = true := by
  rw [List.all_eq_true] at *
  exact fun x hx => hl x (h hx)

theorem setModeOps_unmasked (d : Driver) (mode : RadioMode) (ops : List BusOp) (h : setModeOps d mode = some ops) :
    ops.all Unmasked = true := by
  unfold setModeOps at h
  (repeat' split at h) <;> first | cases h | skip
  all_goals first | rfl | skip
  all_goals
    unfold wakeOps switchOps xtalOps
    (repeat' split) <;> rfl

/-- Only operations change which interrupts are signalled. -/
theorem unmasked_ops {d d' : Driver} {c : Chip} {busy : Nat → Bool} {ev : Event} {ops : List BusOp} (hs : Starts ev = false)
    (h : busOps d c busy ev = some (d', ops)) : ops.all Unmasked = true := by
  cases ev
  case setMode mode =>
    have h : setMode d mode busy = some (d', ops) := h
    unfold setMode at h
    obtain ⟨o, h1, h2⟩ := Option.map_eq_some_iff.1 h
    cases h2
    exact all_sub (each_sub busy o 0) (setModeOps_unmasked d mode o h1)
  case transmit => cases hs
  case receive => cases hs
  case receiveEntropy => cases hs
  case readEntropy =>
    cases Option.some.inj h
    exact all_sub (attempt_prefix busy _ 0).subset rfl
  case readBuffer =>
    cases Option.some.inj h
    exact all_sub (attempt_prefix busy _ 0).subset rfl
  case getStatus =>
    cases Option.some.inj h
    exact all_sub (attempt_prefix busy _ 0).subset rfl
  all_goals
    cases Option.some.inj h
    rfl

/-- Chip and counters after a history that ended in phase `p`. -/
structure PinInv (l : List Event) (p : Phase) (w : Pin) (k : Nat) : Prop where
  count : k = w.calls
  unknown : p = .unknown → ¬ (w.chip.mode = .rx ∨ w.chip.mode = .tx)
  wait : p = .receiving ∨ p = .transmitting → Masks l w.chip

theorem PinInv.acts {l : List Event} {p : Phase} {d : Driver} {w : Pin} {k : Nat} {c : Chip} (h : PinInv l p w k)
    (hi : Sx126x.In d w.chip p) (ha : w.chip.Acts c) : PinInv l p (w.become c) (if awaited l then k + 1 else k) := by
  have hi' := (hi.act ha).1
  obtain ⟨m1, m2⟩ := mask_last (acts_last ha)
  obtain ⟨hm, hm'⟩ := acts_mode ha
  have hn : ¬ (c.mode = .rx ∨ c.mode = .tx) := by rw [hm']; rintro (h | h) <;> cases h
  have hc := h.count
  rcases acts_phase hi ha with rfl | hp
  · exact absurd hm (h.unknown rfl)
  · obtain ⟨q1, q2, q3⟩ := pending_of hi' hp
    have hz0 : dio1 w.chip = false := dio1_zero ((pending_of hi hp).2.1 hm)
    have hw := h.wait hp
    unfold Masks at hw
    have hb : (w.become c).calls = if dio1 c then dio1Handler w.calls else w.calls := by
      show (if !dio1 w.chip && dio1 c then _ else w.calls) = _
      rw [hz0]
      rfl
    by_cases hwait : awaited l = true
    · rw [if_pos hwait] at hw
      have hd : dio1 c = true := by
        have := q3 (by rw [m1]; exact hw.1) hn
        unfold dio1
        rw [m2, hw.2, ← m1]
        exact bne_iff_ne.2 this
      refine ⟨?_, fun _ => hn, fun _ => ?_⟩
      · rw [if_pos hwait, hb, hd, hc]
        rfl
      · unfold Masks
        rw [if_pos hwait]
        show c.irqMask ≠ 0 ∧ c.dio1Mask = c.irqMask
        rw [m1, m2]
        exact hw
    · rw [if_neg hwait] at hw
      have hz : c.irq = 0 := q1 (by rw [m1]; exact hw)
      refine ⟨?_, fun _ => hn, fun _ => ?_⟩
      · rw [if_neg hwait, hb, dio1_zero hz]
        exact hc
      · unfold Masks
        rw [if_neg hwait]
        show c.irqMask = 0
        rw [m1]; exact hw

theorem PinInv.event {l : List Event} {p p' : Phase} {d d' : Driver} {w : Pin} {k : Nat} {ev : Event} {busy : Nat → Bool}
    {ops : List BusOp} (h : PinInv l p w k) (hi : Sx126x.In d w.chip p) (ha : accepts p ev = some p')
    (hf : Fine ev) (hb : Ready busy) (hp : busOps d w.chip busy ev = some (d', ops)) :
    PinInv (l ++ [ev]) p' (w.run ops) k := by
  refine ⟨?_, fun hpu => ?_, fun hp' => ?_⟩
  · refine h.count.trans ?_
    by_cases hz : w.chip.irq = 0
    · exact (pin_zero ops w hz).symm
    · refine (pin_fall ops w (unmasked_ops ?_ hp)).symm
      cases hse : Starts ev
      · rfl
      · rcases starts_phase ha hse with rfl | rfl <;> rcases irq_phase hi hz with h | h | h <;> cases h
  · subst hpu
    obtain ⟨_, h1, _, h2⟩ := unknown_event ha l
    rw [h2 d w.chip busy] at hp
    cases hp
    exact h.unknown h1
  · rw [pin_chip]
    exact masks_event h.wait hi ha hf hb hp hp'

theorem plays_pin {B : (Nat → Bool) → Prop} {d : Driver} {w : Pin} {l : List Event} {d' : Driver} {w' : Pin} {k : Nat}
    (h : Pin.Plays B d w l d' w' k) : Sx126x.Plays B d w.chip l d' w'.chip := by
  induction h with
  | start => exact .start
  | acts _ ha ih => exact .acts ih ha
  | event _ ev busy hb hp ih =>
    refine .event ih ev busy hb ?_
    rw [perform_busOps, hp, pin_chip]
    rfl

theorem pins_inv {d : Driver} {w : Pin} {p : Phase} {l : List Event} {d' : Driver} {w' : Pin} {k : Nat}
    (h : Pin.Plays Ready d w l d' w' k) (hi : Sx126x.In d w.chip p) (h0 : PinInv [] p w 0) {p' : Phase}
    (hf : follow p l = some p') (hfine : ∀ x ∈ l, Fine x) : PinInv l p' w' k := by
  induction h generalizing p' with
  | start => cases hf; exact h0
  | acts hpl ha ih => exact (ih hf hfine).acts (Sx126x.plays_ready hi (plays_pin hpl) hf hfine).1 ha
  | event hpl ev busy hb hp ih =>
    rw [follow_append] at hf
    obtain ⟨q, h1, h2⟩ := Option.bind_eq_some_iff.1 hf
    have ha : accepts q ev = some p' := by
      obtain ⟨q', g1, g2⟩ := Option.bind_eq_some_iff.1 h2
      cases g2
      exact g1
    have hfl := fun x hx => hfine x (List.mem_append_left _ hx)
    exact (ih h1 hfl).event (Sx126x.plays_ready hi (plays_pin hpl) h1 hfl).1 ha
      (hfine ev (List.mem_append_right _ (List.mem_singleton.2 rfl))) hb hp

end Irq
end LDL
