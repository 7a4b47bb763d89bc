import Verif.Spec.Reset
import Verif.Lemmas.RadioTalk

/-!
# The reset line
-/

namespace LDL
namespace Reset
open LDL.Spec LDL.MbedReset LDL.Spec.Reset

theorem wanted_append (b : Bool) (l : List Event) (ev : Event) : wanted b (l ++ [ev]) =
    match ev with | .setMode m => decide (m = .reset) | _ => wanted b l := by
  unfold wanted
  rw [List.foldl_append]
  rfl

/-- The calls do not touch reset. -/
def Clean (ops : List BusOp) : Prop := ∀ o ∈ ops, o ≠ .mode .reset

theorem run_clean (level : Bool) (ops : List BusOp) (hc : Clean ops) (s : Line) (h : asserted level s.pin = false) :
    asserted level (s.run level ops).pin = false ∧ (s.run level ops).clash = s.clash := by
  induction ops generalizing s with
  | nil => exact ⟨h, rfl⟩
  | cons o l ih =>
    have h1 : asserted level (s.op level o).pin = false ∧ (s.op level o).clash = s.clash := by
      cases o with
      | mode m =>
        refine ⟨?_, rfl⟩
        have hm : m ≠ .reset := fun e => hc _ (List.mem_cons_self ..) (by rw [e])
        show asserted level (chipSetMode s.pin m) = false
        cases m
        · exact absurd rfl hm
        · rfl
        all_goals exact h
      | write a b => exact ⟨h, by show (s.clash || asserted level s.pin) = _; rw [h, Bool.or_false]⟩
      | read a b => exact ⟨h, by show (s.clash || asserted level s.pin) = _; rw [h, Bool.or_false]⟩
    obtain ⟨h2, h3⟩ := ih (fun o ho => hc o (List.mem_cons_of_mem _ ho)) (s.op level o) h1.1
    exact ⟨h2, h3.trans h1.2⟩

theorem op_value (level : Bool) (s : Line) (o : BusOp) : (s.op level o).pin.value = s.pin.value := by
  cases o with
  | mode m => cases m <;> rfl
  | write a b => rfl
  | read a b => rfl

theorem run_value (level : Bool) (ops : List BusOp) (s : Line) : (s.run level ops).pin.value = s.pin.value := by
  induction ops generalizing s with
  | nil => rfl
  | cons o l ih => exact (ih (s.op level o)).trans (op_value level s o)

/-- What is needed of a driver. -/
structure Good {D : Type} (B : D → Event → D → List BusOp → Prop) : Prop where
  reset : ∀ d d' ops, B d (.setMode .reset) d' ops → ops = [.mode .reset]
  boot : ∀ d d' ops, B d (.setMode .boot) d' ops → ops = [.mode .sleep]
  clean : ∀ d ev d' ops, ev ≠ .setMode .reset → B d ev d' ops → Clean ops
  quiet : ∀ d ev d' ops p, (p = .reset ∨ p = .unknown) → (∀ m, ev ≠ .setMode m) → accepts p ev ≠ none → B d ev d' ops →
    ops = []

theorem plays_value {D : Type} {B : D → Event → D → List BusOp → Prop} {level : Bool} {d : D} {s : Line} {l : List Event}
    {d' : D} {s' : Line} (h : Plays B level d s l d' s') : s'.pin.value = s.pin.value := by
  induction h with
  | start => rfl
  | event _ ev _ ih => exact (run_value level _ _).trans ih

/-- The line over a history that follows the protocol. -/
theorem plays_line {D : Type} {B : D → Event → D → List BusOp → Prop} (hB : Good B) {level : Bool} {d : D} {s : Line}
    (hv : s.pin.value = level) (hc : s.clash = false) {l : List Event} {d' : D} {s' : Line} (h : Plays B level d s l d' s')
    {p : Phase} (hf : follow .unknown l = some p) :
    asserted level s'.pin = wanted (asserted level s.pin) l ∧ s'.clash = false ∧
      (p = .reset → wanted (asserted level s.pin) l = true) ∧
      (p ≠ .reset → p ≠ .unknown → wanted (asserted level s.pin) l = false) := by
  induction h generalizing p with
  | start =>
    cases hf
    exact ⟨rfl, hc, fun h => absurd h (by decide), fun _ h => absurd rfl h⟩
  | @event l d1 d2 s1 ops hpl ev hp ih =>
    rw [follow_append] at hf
    obtain ⟨q, g1, g2⟩ := Option.bind_eq_some_iff.1 hf
    have ha : accepts q ev = some p := by
      obtain ⟨q', k1, k2⟩ := Option.bind_eq_some_iff.1 g2
      cases k2
      exact k1
    obtain ⟨i1, i2, i3, i4⟩ := ih g1
    have hv1 : s1.pin.value = level := (plays_value hpl).trans hv
    -- calls that leave the line alone
    have rest : wanted (asserted level s.pin) (l ++ [ev]) = false → asserted level s1.pin = false → p ≠ .reset →
        ev ≠ .setMode .reset →
        asserted level (s1.run level ops).pin = wanted (asserted level s.pin) (l ++ [ev]) ∧
        (s1.run level ops).clash = false ∧ (p = .reset → wanted (asserted level s.pin) (l ++ [ev]) = true) ∧
        (p ≠ .reset → p ≠ .unknown → wanted (asserted level s.pin) (l ++ [ev]) = false) := by
      intro e1 e2 e3 e4
      obtain ⟨r1, r2⟩ := run_clean level ops (hB.clean _ _ _ _ e4 hp) s1 e2
      exact ⟨r1.trans e1.symm, r2.trans i2, fun h => absurd h e3, fun _ _ => e1⟩
    by_cases hm : ∃ m, ev = .setMode m
    · obtain ⟨m, rfl⟩ := hm
      have hw := wanted_append (asserted level s.pin) l (.setMode m)
      cases m
      · cases ha
        cases hB.reset _ _ _ hp
        refine ⟨?_, i2, fun _ => hw, fun h => absurd rfl h⟩
        rw [hw]
        show (true && s1.pin.value == level) = _
        rw [hv1]
        cases level <;> rfl
      · obtain ⟨a1, a2⟩ := Option.ite_none_right_eq_some.1 ha
        cases a2
        cases hB.boot _ _ _ hp
        exact ⟨hw.symm, i2, fun h => absurd h (by decide), fun _ _ => hw⟩
      · obtain ⟨a1, a2⟩ := Option.ite_none_left_eq_some.1 ha
        cases a2
        exact rest hw (i1.trans (i4 (fun h => a1 (Or.inl h)) fun h => a1 (Or.inr h))) (by decide) (by simp)
      · obtain ⟨a1, a2⟩ := Option.ite_none_right_eq_some.1 ha
        cases a2
        exact rest hw (i1.trans (i4 (by rcases a1 with rfl | rfl <;> decide) (by rcases a1 with rfl | rfl <;> decide)))
          (by decide) (by simp)
      · obtain ⟨a1, a2⟩ := Option.ite_none_right_eq_some.1 ha
        cases a2
        exact rest hw (i1.trans (i4 (by rw [a1]; decide) (by rw [a1]; decide))) (by decide) (by simp)
      · obtain ⟨a1, a2⟩ := Option.ite_none_right_eq_some.1 ha
        cases a2
        exact rest hw (i1.trans (i4 (by rcases a1 with rfl | rfl <;> decide) (by rcases a1 with rfl | rfl <;> decide)))
          (by decide) (by simp)
    · have hm' : ∀ m, ev ≠ .setMode m := fun m e => hm ⟨m, e⟩
      have hw : wanted (asserted level s.pin) (l ++ [ev]) = wanted (asserted level s.pin) l := by
        rw [wanted_append]
        split
        · next m => exact absurd rfl (hm' m)
        · rfl
      by_cases hq : q = .reset ∨ q = .unknown
      · cases hB.quiet _ _ _ _ q hq hm' (by rw [ha]; exact Option.some_ne_none _) hp
        have hpq : p = q := by
          rcases hq with rfl | rfl
          all_goals
            cases ev
            case setMode m => exact absurd rfl (hm' m)
            all_goals first | exact (Option.some.inj ha).symm | cases ha
        rw [hw, hpq]
        exact ⟨i1, i2, i3, i4⟩
      · have hp' : p ≠ .reset ∧ p ≠ .unknown := by
          have hq1 : q ≠ .reset ∧ q ≠ .unknown := ⟨fun h => hq (Or.inl h), fun h => hq (Or.inr h)⟩
          cases ev
          case setMode m => exact absurd rfl (hm' m)
          all_goals first
            | (cases Option.some.inj ha; exact hq1)
            | (obtain ⟨_, a2⟩ := Option.ite_none_right_eq_some.1 ha
               cases a2
               first | exact ⟨by decide, by decide⟩ | exact hq1)
        have h0 := i4 (fun h => hq (Or.inl h)) fun h => hq (Or.inr h)
        exact rest (hw.trans h0) (i1.trans h0) hp'.1 (hm' _)

/-! ### The drivers -/

theorem attempt_mem (busy : Nat → Bool) (l : List BusOp) (i : Nat) : ∀ o ∈ Sx126x.attempt busy i l, o ∈ l := by
  induction l generalizing i with
  | nil => exact fun o h => h
  | cons a l ih =>
    intro o ho
    have hk : o = a ∨ ∃ j, o ∈ Sx126x.attempt busy j l := by
      cases a with
      | mode m =>
        rcases List.mem_cons.1 ho with h | h
        · exact Or.inl h
        · exact Or.inr ⟨_, h⟩
      | write x y =>
        simp only [Sx126x.attempt] at ho
        split at ho
        · cases ho
        · rcases List.mem_cons.1 ho with h | h
          · exact Or.inl h
          · exact Or.inr ⟨_, h⟩
      | read x y =>
        simp only [Sx126x.attempt] at ho
        split at ho
        · cases ho
        · rcases List.mem_cons.1 ho with h | h
          · exact Or.inl h
          · exact Or.inr ⟨_, h⟩
    rcases hk with rfl | ⟨j, h⟩
    · exact List.mem_cons_self ..
    · exact List.mem_cons_of_mem _ (ih j o h)

theorem each_mem (busy : Nat → Bool) (l : List BusOp) (i : Nat) : ∀ o ∈ Sx126x.each busy i l, o ∈ l := by
  induction l generalizing i with
  | nil => exact fun o h => h
  | cons a l ih =>
    intro o ho
    have hk : o = a ∨ ∃ j, o ∈ Sx126x.each busy j l := by
      cases a with
      | mode m =>
        rcases List.mem_cons.1 ho with h | h
        · exact Or.inl h
        · exact Or.inr ⟨_, h⟩
      | write x y =>
        simp only [Sx126x.each] at ho
        split at ho
        · exact Or.inr ⟨_, ho⟩
        · rcases List.mem_cons.1 ho with h | h
          · exact Or.inl h
          · exact Or.inr ⟨_, h⟩
      | read x y =>
        simp only [Sx126x.each] at ho
        split at ho
        · exact Or.inr ⟨_, ho⟩
        · rcases List.mem_cons.1 ho with h | h
          · exact Or.inl h
          · exact Or.inr ⟨_, h⟩
    rcases hk with rfl | ⟨j, h⟩
    · exact List.mem_cons_self ..
    · exact List.mem_cons_of_mem _ (ih j o h)

theorem Clean.attempt {l : List BusOp} (h : Clean l) (busy : Nat → Bool) (i : Nat) : Clean (Sx126x.attempt busy i l) :=
  fun o ho => h o (attempt_mem busy l i o ho)

theorem Clean.append {a b : List BusOp} (h : Clean a) (h' : Clean b) : Clean (a ++ b) :=
  fun o ho => (List.mem_append.1 ho).elim (h o) (h' o)

theorem Clean.cons {o : BusOp} {l : List BusOp} (h : o ≠ .mode .reset) (h' : Clean l) : Clean (o :: l) := by
  intro x hx
  rcases List.mem_cons.1 hx with rfl | hx
  · exact h
  · exact h' x hx

theorem Clean.nil : Clean [] := fun _ h => by cases h

def tx0 : TxSetting := { freq := 0, bw := .b125, sf := 7, eirp := 0 }
def rx0 : RxSetting := { freq := 0, bw := .b125, sf := 7, timeout := 0, max := 0 }

theorem calibrateImage_ne (f : Nat) : Sx126x.calibrateImage f ≠ .mode .reset := by
  unfold Sx126x.calibrateImage
  intro h
  repeat' split at h
  all_goals cases h

/-- All calls of a list that is given in full. -/
macro "clean" : tactic => `(tactic|
  repeat' first
    | exact Clean.nil
    | (refine Clean.append ?_ ?_)
    | (refine Clean.cons (by intro h; cases h) ?_)
    | (refine Clean.cons (calibrateImage_ne _) ?_)
    | split)

theorem clean126 (d : Sx126x.Driver) (s : TxSetting) (data : Bytes) (r : RxSetting) :
    Clean (Sx126x.transmitOps d s data) ∧ Clean (Sx126x.receiveOps d r) ∧ Clean (Sx126x.wakeOps d) := by
  refine ⟨?_, ?_, ?_⟩
  · unfold Sx126x.transmitOps Sx126x.beginOps Sx126x.setPower
    simp only
    clean
  · unfold Sx126x.receiveOps Sx126x.beginOps
    clean
  · unfold Sx126x.wakeOps Sx126x.switchOps Sx126x.xtalOps
    clean

theorem clean126_mode (d : Sx126x.Driver) (m : RadioMode) (hm : m ≠ .reset) (ops : List BusOp)
    (h : Sx126x.setModeOps d m = some ops) : Clean ops := by
  unfold Sx126x.setModeOps at h
  split at h
  · exact absurd rfl hm
  · split at h <;> cases h
    clean
  · split at h <;> cases h <;> clean
  · split at h <;> cases h
    · exact (clean126 d tx0 [] rx0).2.2
    · exact (clean126 d tx0 [] rx0).2.2
    · clean
  · split at h <;> cases h
    · exact (clean126 d tx0 [] rx0).2.2
    · exact (clean126 d tx0 [] rx0).2.2
    · clean
  · split at h <;> cases h <;> clean

theorem good126 : Good Driver126 where
  reset := by
    rintro d d' ops ⟨c, busy, h⟩
    cases h
    rfl
  boot := by
    rintro d d' ops ⟨c, busy, h⟩
    obtain ⟨o, h1, h2⟩ := Option.map_eq_some_iff.1 (show (Sx126x.setModeOps d .boot).map _ = some (d', ops) from h)
    have : o = [.mode .sleep] := by
      simp only [Sx126x.setModeOps] at h1
      split at h1
      · exact (Option.some.inj h1).symm
      · cases h1
    subst this
    cases h2
    rfl
  clean := by
    rintro d ev d' ops hne ⟨c, busy, h⟩
    cases ev
    case setMode m =>
      obtain ⟨o, h1, h2⟩ := Option.map_eq_some_iff.1 (show (Sx126x.setModeOps d m).map _ = some (d', ops) from h)
      cases h2
      have hc := clean126_mode d m (fun e => hne (by rw [e])) o h1
      exact fun x hx => hc x (each_mem busy o 0 x hx)
    case transmit t s data => cases h; exact (clean126 d s data rx0).1.attempt busy 0
    case receive t s => cases h; exact (clean126 d tx0 [] s).2.1.attempt busy 0
    case receiveEntropy => cases h; refine Clean.attempt ?_ busy 0; clean
    case readEntropy => cases h; refine Clean.attempt ?_ busy 0; clean
    case readBuffer => cases h; refine Clean.attempt ?_ busy 0; clean
    case getStatus => cases h; refine Clean.attempt ?_ busy 0; clean
    all_goals cases h; exact Clean.nil
  quiet := by
    rintro d ev d' ops p hp hm ha ⟨c, busy, h⟩
    cases ev
    case setMode m => exact absurd rfl (hm m)
    case transmit | receive | receiveEntropy | readEntropy | readBuffer | getStatus =>
      rcases hp with rfl | rfl <;> exact absurd rfl ha
    all_goals cases h; rfl

theorem clean127 (d : Sx127x.Driver) (s : TxSetting) (data : Bytes) (r : RxSetting) (rd : Nat → UInt8) (n : Nat) :
    Clean (Sx127x.transmit d s data) ∧ Clean (Sx127x.receive d r) ∧ Clean (Sx127x.setXTAL d rd) ∧
    Clean (Sx127x.receiveEntropy d) ∧ Clean Sx127x.readEntropyOps ∧ Clean (Sx127x.readBufferOps rd n) := by
  refine ⟨?_, ?_, ?_, ?_, ?_, ?_⟩
  · unfold Sx127x.transmit Sx127x.setPower Sx127x.setPower1272 Sx127x.setPower1276 Sx127x.modemConfig Sx127x.modemConfig1272
      Sx127x.modemConfig1276 Sx127x.setFreq Sx127x.setOpTX
    simp only
    clean
  · unfold Sx127x.receive Sx127x.modemConfig Sx127x.modemConfig1272 Sx127x.modemConfig1276 Sx127x.setFreq Sx127x.setOpRXSingle
    simp only
    clean
  · unfold Sx127x.setXTAL Sx127x.setXTALReg
    simp only
    clean
  · unfold Sx127x.receiveEntropy Sx127x.maskIrq Sx127x.setOpRXContinuous
    clean
  · unfold Sx127x.readEntropyOps Sx127x.maskIrq Sx127x.setOpStandby
    refine Clean.append (Clean.append (Clean.append ?_ ?_) ?_) ?_
    · intro o ho
      rw [List.eq_of_mem_replicate ho]
      intro h; cases h
    all_goals clean
  · unfold Sx127x.readBufferOps
    simp only
    clean

theorem clean127_mode (d : Sx127x.Driver) (m : RadioMode) (rd : Nat → UInt8) (hm : m ≠ .reset) (ops : List BusOp)
    (h : Sx127x.setModeOps d m rd = some ops) : Clean ops := by
  have hx := (clean127 d tx0 [] rx0 rd 0).2.2.1
  cases m
  · exact absurd rfl hm
  all_goals
    simp only [Sx127x.setModeOps] at h
    split at h <;> cases h
  all_goals
    try unfold Sx127x.maskIrq
    try unfold Sx127x.setOpSleep
    try unfold Sx127x.setOpStandby
    repeat' first
      | exact Clean.nil
      | exact hx
      | (refine Clean.append ?_ ?_)
      | (refine Clean.cons (by intro h; cases h) ?_)
      | split

theorem good127 : Good Driver127 where
  reset := by
    rintro d d' ops ⟨c, h⟩
    cases h
    rfl
  boot := by
    rintro d d' ops ⟨c, h⟩
    obtain ⟨o, h1, h2⟩ := Option.map_eq_some_iff.1 (show (Sx127x.setModeOps d .boot c.reg).map _ = some (d', ops) from h)
    have : o = [.mode .sleep] := by
      simp only [Sx127x.setModeOps] at h1
      split at h1
      · exact (Option.some.inj h1).symm
      · cases h1
    subst this
    cases h2
    rfl
  clean := by
    rintro d ev d' ops hne ⟨c, h⟩
    cases ev
    case setMode m =>
      obtain ⟨o, h1, h2⟩ := Option.map_eq_some_iff.1 (show (Sx127x.setModeOps d m c.reg).map _ = some (d', ops) from h)
      cases h2
      exact clean127_mode d m c.reg (fun e => hne (by rw [e])) ops h1
    case transmit t s data => cases h; exact (clean127 d s data rx0 c.reg 0).1
    case receive t s => cases h; exact (clean127 d tx0 [] s c.reg 0).2.1
    case receiveEntropy => cases h; exact (clean127 d tx0 [] rx0 c.reg 0).2.2.2.1
    case readEntropy => cases h; exact (clean127 d tx0 [] rx0 c.reg 0).2.2.2.2.1
    case readBuffer => cases h; exact (clean127 d tx0 [] rx0 c.reg 255).2.2.2.2.2
    case getStatus => cases h; clean
    all_goals cases h; exact Clean.nil
  quiet := by
    rintro d ev d' ops p hp hm ha ⟨c, h⟩
    cases ev
    case setMode m => exact absurd rfl (hm m)
    case transmit | receive | receiveEntropy | readEntropy | readBuffer | getStatus =>
      rcases hp with rfl | rfl <;> exact absurd rfl ha
    all_goals cases h; rfl

end Reset
end LDL
