import Verif.Spec.Calibrate
import Verif.Props.Sx126x

/-!
# Image calibration of the SX126x (C90)
-/

namespace LDL
open Spec Spec.Sx126x LDL.Sx126x

theorem traced_plays {B : (Nat → Bool) → Prop} {d d' : Driver} {c c' : Chip} {l : List (Event × List BusOp)}
    (h : Traced B d c l d' c') : Plays B d c (l.map Prod.fst) d' c' := by
  induction h with
  | start => exact .start
  | acts _ ha ih => exact .acts ih ha
  | event _ ev busy hb hp ih =>
    rw [List.map_append]
    exact .event ih ev busy hb hp

theorem calibrations_append (l : List (Event × List BusOp)) (x : Event × List BusOp) :
    calibrations (l ++ [x]) = if goesCold x.1 then 0 else calibrations l + x.2.countP (opcode 0x98) := by
  unfold calibrations
  rw [List.foldl_append]
  rfl

theorem mem_each (busy : Nat → Bool) (l : List BusOp) (i : Nat) (o : BusOp) (h : o ∈ each busy i l) : o ∈ l := by
  induction l generalizing i with
  | nil => exact h
  | cons a l ih =>
    cases a with
    | mode m =>
      rcases List.mem_cons.1 h with rfl | h
      · exact List.mem_cons_self ..
      · exact List.mem_cons_of_mem _ (ih _ h)
    | write op data =>
      change o ∈ (if busy i then _ else _) at h
      split at h
      · exact List.mem_cons_of_mem _ (ih _ h)
      · rcases List.mem_cons.1 h with rfl | h
        · exact List.mem_cons_self ..
        · exact List.mem_cons_of_mem _ (ih _ h)
    | read op n =>
      change o ∈ (if busy i then _ else _) at h
      split at h
      · exact List.mem_cons_of_mem _ (ih _ h)
      · rcases List.mem_cons.1 h with rfl | h
        · exact List.mem_cons_self ..
        · exact List.mem_cons_of_mem _ (ih _ h)

/-- None of the commands is a calibration. -/
def Plain (l : List BusOp) : Prop := ∀ o ∈ l, opcode 0x98 o = false

theorem Plain.count {l : List BusOp} (h : Plain l) : l.countP (opcode 0x98) = 0 :=
  List.countP_eq_zero.2 fun o ho => by rw [h o ho]; decide

theorem Plain.each {l : List BusOp} (h : Plain l) (busy : Nat → Bool) (i : Nat) : Plain (each busy i l) :=
  fun o ho => h o (mem_each busy l i o ho)

theorem Plain.attempt {l : List BusOp} (h : Plain l) (busy : Nat → Bool) (i : Nat) : Plain (attempt busy i l) :=
  fun o ho => h o ((attempt_prefix busy l i).subset ho)

theorem Plain.append {l r : List BusOp} (hl : Plain l) (hr : Plain r) : Plain (l ++ r) := fun o ho => by
  rcases List.mem_append.1 ho with h | h
  · exact hl o h
  · exact hr o h

theorem plain_setMode (d : Driver) (mode : RadioMode) (ops : List BusOp) (h : setModeOps d mode = some ops) :
    Plain ops := by
  have wake : Plain (wakeOps d) := by
    unfold wakeOps switchOps xtalOps
    cases d.type <;> cases d.xtal <;> intro o ho <;> simp at ho <;> (repeat' rcases ho with rfl | ho) <;>
      (try subst ho) <;> rfl
  unfold setModeOps at h
  intro o ho
  cases mode <;> simp only [] at h <;> (try split at h) <;> cases h <;> (try exact wake o ho) <;> simp at ho <;>
    (repeat' rcases ho with rfl | ho) <;> (try subst ho) <;> rfl

/-- The accesses of a transmission but for the calibration. -/
def restTx (d : Driver) (s : TxSetting) (data : Bytes) : List BusOp :=
  Sx126x.setPower d (s16 (s.eirp - d.txGain)) ++
  [setBufferBaseAddress 0 0, setRfFrequency s.freq, writeBuffer 0 data,
    setModulationParams s.sf s.bw 1 (lowRate s.bw s.sf), setPacketParams 8 false (u8 data.length) true false,
    setDioIrqParams 1 1 0 0, setSyncWord 0x3444, setTx 0]

/-- The accesses of a window but for the calibration. -/
def restRx (s : RxSetting) : List BusOp :=
  [setBufferBaseAddress 0 0, setRfFrequency s.freq, setModulationParams s.sf s.bw 1 (lowRate s.bw s.sf),
    setPacketParams 8 false (u8 s.max) false true, setDioIrqParams 0x202 0x202 0 0, setSyncWord 0x3444,
    setLoRaSymbNumTimeout (if s.timeout > 255 then 255 else u8 s.timeout), setRx 0]

theorem plain_tx (d : Driver) (s : TxSetting) (data : Bytes) : Plain (restTx d s data) := by
  unfold restTx
  refine Plain.append ?_ ?_
  · unfold Sx126x.setPower
    split <;> intro o ho <;> simp at ho <;> (repeat' rcases ho with rfl | ho) <;> (try subst ho) <;> rfl
  · intro o ho
    simp at ho
    (repeat' rcases ho with rfl | ho) <;> (try subst ho) <;> rfl

theorem plain_rx (s : RxSetting) : Plain (restRx s) := by
  unfold restRx
  intro o ho
  simp at ho
  (repeat' rcases ho with rfl | ho) <;> (try subst ho) <;> rfl

theorem image_opcode (f : Nat) : ∃ a b, calibrateImage f = .write [0x98, a, b] [] := by
  unfold calibrateImage
  (repeat' split) <;> exact ⟨_, _, rfl⟩

/-- Packet type, calibration if due, and the rest. -/
theorem begin_count (d : Driver) (f : Nat) (rest : List BusOp) (h : Plain rest) (busy : Nat → Bool) :
    (attempt busy 0 (beginOps d f ++ rest)).countP (opcode 0x98) =
      if d.imagePending && !(busy 0 || busy 1) then 1 else 0 := by
  unfold beginOps
  cases hp : d.imagePending with
  | false =>
    rw [show (([setPacketType 1] ++ if false = true then [calibrateImage f] else []) ++ rest) = [setPacketType 1] ++ rest from rfl]
    exact (Plain.attempt (Plain.append (fun o ho => by cases List.mem_singleton.1 ho; rfl) h) busy 0).count
  | true =>
    obtain ⟨a, b, hi⟩ := image_opcode f
    show (if busy 0 then [] else setPacketType 1 :: attempt busy 1 (calibrateImage f :: rest)).countP _ = _
    rw [hi]
    cases h0 : busy 0
    · show ((if busy 1 then [] else BusOp.write [0x98, a, b] [] :: attempt busy 2 rest)).countP _ = _
      cases h1 : busy 1
      · show (BusOp.write [0x98, a, b] [] :: attempt busy 2 rest).countP _ = _
        rw [List.countP_cons_of_pos (by rfl), (h.attempt busy 2).count]
        rfl
      · rfl
    · rfl

theorem transmit_count (d : Driver) (s : TxSetting) (data : Bytes) (busy : Nat → Bool) :
    (transmit d s data busy).2.countP (opcode 0x98) = if d.imagePending && !(busy 0 || busy 1) then 1 else 0 := by
  rw [← begin_count d s.freq (restTx d s data) (plain_tx d s data) busy]
  show (attempt busy 0 (transmitOps d s data)).countP _ = _
  unfold transmitOps restTx
  rw [List.append_assoc]

theorem receive_count (d : Driver) (s : RxSetting) (busy : Nat → Bool) :
    (receive d s busy).2.countP (opcode 0x98) = if d.imagePending && !(busy 0 || busy 1) then 1 else 0 := by
  rw [← begin_count d s.freq (restRx s) (plain_rx s) busy]
  rfl

/-- Between cold starts: the driver knows whether the chip has been calibrated. -/
def Knows (d : Driver) (n : Nat) : Phase → Prop
  | .unknown | .reset | .boot | .sleep => n = 0
  | _ => n = if d.imagePending then 0 else 1

theorem knows_event {d d' : Driver} {c c' : Chip} {p q : Phase} {n : Nat} (hm : d.mode = phaseMode p) (hk : Knows d n p)
    (ev : Event) (busy : Nat → Bool) (hp : perform d c busy ev = some (d', c')) (ha : Spec.accepts p ev = some q) :
    Knows d' (if goesCold ev then 0 else n + (accesses d c busy ev).countP (opcode 0x98)) q := by
  have air : ∀ (d' : Driver) (x : Bool) (k : Nat), d'.imagePending = (d.imagePending && x) → (n = if d.imagePending then 0 else 1) →
      (k = if d.imagePending && !x then 1 else 0) → n + k = if d'.imagePending then 0 else 1 := by
    intro d' x k h1 h2 h3
    rw [h1, h2, h3]
    cases d.imagePending <;> cases x <;> rfl
  have still : ∀ ops, (d' = d) → q = p → Plain ops → Knows d' (n + ops.countP (opcode 0x98)) q := by
    intro ops h1 h2 h3
    rw [h3.count, h1, h2]
    exact hk
  cases ev
  case setMode mode =>
    change (setMode d mode busy).map _ = _ at hp
    obtain ⟨x, hx, h2⟩ := Option.map_eq_some_iff.1 hp
    have hd : d' = x.1 := (congrArg Prod.fst h2).symm
    unfold setMode at hx
    obtain ⟨ops, ho, hx'⟩ := Option.map_eq_some_iff.1 hx
    have hacc : (accesses d c busy (.setMode mode)).countP (opcode 0x98) = 0 := by
      show (((setMode d mode busy).map Prod.snd).getD []).countP _ = 0
      unfold setMode
      rw [ho]
      exact ((plain_setMode d mode ops ho).each busy 0).count
    rw [hacc]
    have hpend : d'.imagePending = if (mode = .rx ∨ mode = .tx) ∧ (d.mode = .boot ∨ d.mode = .sleep) then true
        else d.imagePending := by rw [hd, ← hx']
    cases mode
    · cases ha; rfl
    · obtain ⟨h1, h3⟩ := Option.ite_none_right_eq_some.1 ha
      cases h3; subst h1
      exact hk
    · obtain ⟨_, h3⟩ := Option.ite_none_left_eq_some.1 ha
      cases h3; rfl
    · obtain ⟨h1, h3⟩ := Option.ite_none_right_eq_some.1 ha
      cases h3
      rcases h1 with rfl | rfl
      · rw [if_pos ⟨Or.inl rfl, Or.inr hm⟩] at hpend
        show n + 0 = if d'.imagePending then 0 else 1
        rw [hpend]
        exact hk
      · rw [if_neg (by rw [hm]; decide)] at hpend
        show n + 0 = if d'.imagePending then 0 else 1
        rw [hpend]
        exact hk
    · obtain ⟨h1, h3⟩ := Option.ite_none_right_eq_some.1 ha
      cases h3; subst h1
      rw [if_pos ⟨Or.inr rfl, Or.inr hm⟩] at hpend
      show n + 0 = if d'.imagePending then 0 else 1
      rw [hpend]
      exact hk
    · obtain ⟨h1, h3⟩ := Option.ite_none_right_eq_some.1 ha
      cases h3
      rw [if_neg (fun h => by rcases h.1 with h | h <;> cases h)] at hpend
      show n + 0 = if d'.imagePending then 0 else 1
      rw [hpend]
      rcases h1 with rfl | rfl <;> exact hk
  case transmit t s data =>
    obtain ⟨h1, h3⟩ := Option.ite_none_right_eq_some.1 ha
    cases h3; subst h1
    have hd : d' = (transmit d s data busy).1 := (congrArg Prod.fst (Option.some.inj hp)).symm
    exact air d' (busy 0 || busy 1) _ (by rw [hd]; rfl) hk (transmit_count d s data busy)
  case receive t s =>
    obtain ⟨h1, h3⟩ := Option.ite_none_right_eq_some.1 ha
    cases h3; subst h1
    have hd : d' = (receive d s busy).1 := (congrArg Prod.fst (Option.some.inj hp)).symm
    exact air d' (busy 0 || busy 1) _ (by rw [hd]; rfl) hk (receive_count d s busy)
  case receiveEntropy =>
    obtain ⟨h1, h3⟩ := Option.ite_none_right_eq_some.1 ha
    cases h3; subst h1
    have hd : d' = d := (congrArg Prod.fst (Option.some.inj hp)).symm
    have : Plain (receiveEntropy busy) := Plain.attempt (fun o ho => by
      simp at ho
      rcases ho with rfl | rfl | rfl | rfl <;> rfl) busy 0
    show n + (receiveEntropy busy).countP _ = if d'.imagePending then 0 else 1
    rw [this.count, hd]
    exact hk
  case readEntropy =>
    obtain ⟨h1, h3⟩ := Option.ite_none_right_eq_some.1 ha
    refine still _ (congrArg Prod.fst (Option.some.inj hp)).symm (Option.some.inj h3).symm (Plain.attempt (fun o ho => ?_) busy 0)
    cases List.mem_singleton.1 ho; rfl
  case readBuffer =>
    obtain ⟨h1, h3⟩ := Option.ite_none_right_eq_some.1 ha
    refine still _ (congrArg Prod.fst (Option.some.inj hp)).symm (Option.some.inj h3).symm (Plain.attempt (fun o ho => ?_) busy 0)
    simp at ho
    rcases ho with rfl | rfl | rfl <;> rfl
  case getStatus =>
    obtain ⟨h1, h3⟩ := Option.ite_none_right_eq_some.1 ha
    refine still _ (congrArg Prod.fst (Option.some.inj hp)).symm (Option.some.inj h3).symm (Plain.attempt (fun o ho => ?_) busy 0)
    cases List.mem_singleton.1 ho; rfl
  all_goals exact still [] (congrArg Prod.fst (Option.some.inj hp)).symm (Option.some.inj ha).symm (fun o ho => by cases ho)

theorem traced_knows (b : Board) (c : Chip) {l : List (Event × List BusOp)} {d' : Driver} {c' : Chip}
    (h : Traced Anyhow b.driver c l d' c') {p : Phase} (hf : follow .unknown (l.map Prod.fst) = some p)
    (hfine : ∀ x ∈ l.map Prod.fst, Fine x) : Knows d' (calibrations l) p := by
  induction h generalizing p with
  | start => cases hf; rfl
  | acts _ _ ih => exact ih hf hfine
  | event h ev busy hb hp ih =>
    rw [List.map_append, follow_append] at hf
    obtain ⟨q, h1, h2⟩ := Option.bind_eq_some_iff.1 hf
    obtain ⟨r, h3, h4⟩ := Option.bind_eq_some_iff.1 h2
    cases h4
    have hsub : ∀ x ∈ List.map Prod.fst _, Fine x := fun x hx => hfine x (by rw [List.map_append]; exact List.mem_append_left _ hx)
    rw [calibrations_append]
    exact knows_event (plays_any (board_any b c) (traced_plays h) h1 hsub).1.mode (ih h1 hsub) ev busy hp h3

/-- **C90**: whatever accesses fail, the image is calibrated at most once after the chip has forgotten its set-up. -/
theorem c90_once {cfg : Cfg} (hE : ∀ k, BlockFn (cfg.E k)) {m : Mac} (hr : Reachable cfg m) (b : Board) (c : Chip)
    (l : List (Event × List BusOp)) (after : List Event) (hl : m.out = l.map Prod.fst ++ after) (d' : Driver) (c' : Chip)
    (hp : Traced Anyhow b.driver c l d' c') : calibrations l ≤ 1 := by
  obtain ⟨p, h1, _⟩ := reachable_says hr
  rw [hl, follow_append] at h1
  obtain ⟨q, h2, _⟩ := Option.bind_eq_some_iff.1 h1
  have hf := reachable_fine hE hr
  have := traced_knows b c hp h2 fun x hx => hf x (by rw [hl]; exact List.mem_append_left _ hx)
  generalize calibrations l = n at *
  cases q <;> simp only [Knows] at this <;> (try split at this) <;> omega

theorem begun {d : Driver} {f : Nat} {rest : List BusOp} {busy : Nat → Bool} {o : BusOp}
    (h : o ∈ attempt busy 0 (beginOps d f ++ rest)) (h1 : o ≠ setPacketType 1) (h2 : opcode 0x98 o = false) :
    (d.imagePending && (busy 0 || busy 1)) = false := by
  unfold beginOps at h
  cases hp : d.imagePending with
  | false => rfl
  | true =>
    rw [hp] at h
    change o ∈ (if busy 0 then [] else setPacketType 1 :: attempt busy 1 (calibrateImage f :: rest)) at h
    obtain ⟨a, b, hi⟩ := image_opcode f
    rw [hi] at h
    cases h0 : busy 0
    · rw [h0] at h
      rcases List.mem_cons.1 h with h | h
      · exact absurd h h1
      · change o ∈ (if busy 1 then [] else _ :: attempt busy 2 rest) at h
        cases h3 : busy 1
        · rfl
        · rw [h3] at h; cases h
    · rw [h0] at h; cases h

/-- **C90**: and when a transmission (SetTx, 0x83) or a receive window (SetRx, 0x82) is started it has been. -/
theorem c90_before {cfg : Cfg} (hE : ∀ k, BlockFn (cfg.E k)) {m : Mac} (hr : Reachable cfg m) (b : Board) (c : Chip)
    (l : List (Event × List BusOp)) (ev : Event) (after : List Event) (hl : m.out = l.map Prod.fst ++ ev :: after)
    (d' : Driver) (c' : Chip) (hp : Traced Anyhow b.driver c l d' c') (busy : Nat → Bool) (t : Nat)
    (hev : (∃ s data, ev = .transmit t s data) ∧ (accesses d' c' busy ev).any (opcode 0x83) ∨
      (∃ s, ev = .receive t s) ∧ (accesses d' c' busy ev).any (opcode 0x82)) :
    calibrations (l ++ [(ev, accesses d' c' busy ev)]) = 1 := by
  obtain ⟨p, q, h1, ha⟩ := phase_at hr (l.map Prod.fst) after ev hl
  have hf := reachable_fine hE hr
  have hfl : ∀ x ∈ l.map Prod.fst, Fine x := fun x hx => hf x (by rw [hl]; exact List.mem_append_left _ hx)
  have hk := traced_knows b c hp h1 hfl
  have hm := (plays_any (board_any b c) (traced_plays hp) h1 hfl).1.mode
  rw [calibrations_append]
  rcases hev with ⟨⟨s, data, rfl⟩, hx⟩ | ⟨⟨s, rfl⟩, hx⟩
  · have := knows_event (c := c') hm hk (.transmit t s data) busy rfl ha
    obtain ⟨o, ho, ho'⟩ := List.any_eq_true.1 hx
    have hpd : (d'.imagePending && (busy 0 || busy 1)) = false := by
      refine begun (f := s.freq) (rest := restTx d' s data) (o := o) ?_ ?_ ?_
      · have : beginOps d' s.freq ++ restTx d' s data = transmitOps d' s data := by
          unfold transmitOps restTx; rw [List.append_assoc]
        rw [this]; exact ho
      · rintro rfl; cases ho'
      · cases o with
        | write a x => cases a with
          | nil => rfl
          | cons a _ => have : a = 0x83 := by simpa [opcode] using ho'
                        subst this; rfl
        | _ => rfl
    obtain ⟨_, h3⟩ := Option.ite_none_right_eq_some.1 ha
    cases h3
    refine Eq.trans this ?_
    show (if (d'.imagePending && (busy 0 || busy 1)) = true then 0 else 1) = 1
    rw [hpd]; rfl
  · have := knows_event (c := c') hm hk (.receive t s) busy rfl ha
    obtain ⟨o, ho, ho'⟩ := List.any_eq_true.1 hx
    have hpd : (d'.imagePending && (busy 0 || busy 1)) = false := by
      have ho2 : o ∈ BusOp.mode .rx :: attempt busy 0 (beginOps d' s.freq ++ restRx s) := ho
      refine begun (f := s.freq) (rest := restRx s) (o := o) ?_ ?_ ?_
      · rcases List.mem_cons.1 ho2 with rfl | h
        · cases ho'
        · exact h
      · rintro rfl; cases ho'
      · cases o with
        | write a x => cases a with
          | nil => rfl
          | cons a _ => have : a = 0x82 := by simpa [opcode] using ho'
                        subst this; rfl
        | _ => rfl
    obtain ⟨_, h3⟩ := Option.ite_none_right_eq_some.1 ha
    cases h3
    refine Eq.trans this ?_
    show (if (d'.imagePending && (busy 0 || busy 1)) = true then 0 else 1) = 1
    rw [hpd]; rfl

/-- The events of a history with their accesses; with each event the accesses that fail. -/
def Demo.traceOn (o : Option (List (Event × List BusOp) × Driver × Chip)) (x : Event × (Nat → Bool)) :
    Option (List (Event × List BusOp) × Driver × Chip) :=
  o.bind fun y => (perform y.2.1 y.2.2 x.2 x.1).map fun z => (y.1 ++ [(x.1, accesses y.2.1 y.2.2 x.2 x.1)], z)

/-- The same from the start. -/
def Demo.traced126 (l : List (Event × (Nat → Bool))) : Option (List (Event × List BusOp) × Driver × Chip) :=
  l.foldl Demo.traceOn (some ([], Demo.board126.driver, Demo.chip126))

theorem Demo.trace_none (l : List (Event × (Nat → Bool))) : l.foldl Demo.traceOn none = none := by
  induction l with
  | nil => rfl
  | cons a l ih => exact ih

theorem Demo.trace_from (l : List (Event × (Nat → Bool))) {y : List (Event × List BusOp) × Driver × Chip}
    (hy : Traced Anyhow Demo.board126.driver Demo.chip126 y.1 y.2.1 y.2.2) {x : List (Event × List BusOp) × Driver × Chip}
    (h : l.foldl Demo.traceOn (some y) = some x) : Traced Anyhow Demo.board126.driver Demo.chip126 x.1 x.2.1 x.2.2 := by
  induction l generalizing y with
  | nil => cases h; exact hy
  | cons a l ih =>
    change l.foldl Demo.traceOn ((perform y.2.1 y.2.2 a.2 a.1).map _) = _ at h
    cases hp : perform y.2.1 y.2.2 a.2 a.1 with
    | none => rw [hp] at h; rw [show Option.map _ none = none from rfl, Demo.trace_none] at h; cases h
    | some z =>
      rw [hp] at h
      exact ih (.event hy a.1 a.2 trivial hp) h

/-- Such a history meets the hypothesis of C90. -/
theorem Demo.traced_of (l : List (Event × (Nat → Bool))) {x : List (Event × List BusOp) × Driver × Chip}
    (h : Demo.traced126 l = some x) : Traced Anyhow Demo.board126.driver Demo.chip126 x.1 x.2.1 x.2.2 :=
  Demo.trace_from l .start h

/-- A device that sent a frame and listened in both windows: one calibration, before the frame. -/
example : (Demo.traced126 (Demo.fine Demo.bothWindows.out)).map (fun x =>
    (x.1.map fun y => y.2.countP (opcode 0x98)).filter (· ≠ 0)) = some [1] := by decide +kernel

/-- A transmission that failed at the calibration: the window makes up for it. -/
example : (Demo.traced126 (Demo.fine Demo.toTx ++ [(Demo.uplink, fun i => i == 1), (.setMode .hold, fun _ => false),
    (.setMode .rx, fun _ => false), (Demo.window, fun _ => false)])).map (fun x =>
      (x.1.map fun y => y.2.countP (opcode 0x98), calibrations x.1)) = some ([0, 0, 0, 0, 0, 0, 0, 1], 1) := by decide +kernel

end LDL
