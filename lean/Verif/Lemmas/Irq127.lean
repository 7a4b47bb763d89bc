import Verif.Spec.Irq127
import Verif.Lemmas.Sx127xLoop

/-!
# Interrupts of the SX1272 and SX1276
-/

namespace LDL
namespace Irq127
open LDL.Spec LDL.Spec.Sx127x LDL.Sx127x LDL.MbedIrq LDL.Spec.Irq127

theorem waits_append (l : List Event) (ev : Event) : waits (l ++ [ev]) =
    match ev with | .transmit .. | .receive .. => true | .receiveEntropy | .setMode _ => false | _ => waits l := by
  unfold waits
  rw [List.foldl_append]
  rfl

theorem perform_busOps (d : Driver) (c : Chip) (ev : Event) :
    perform d c ev = (busOps d c ev).map fun x => (x.1, c.run x.2) := by
  cases ev <;> rfl

/-! ### No flag is pending -/

theorem setReg_zero (c : Chip) (a : Nat) (v : UInt8) (h : c.page 0x12 = 0) : (c.setReg a v).page 0x12 = 0 := by
  unfold Chip.setReg
  split
  · exact h
  · split
    · split
      · by_cases ha : a = 0x12
        · subst ha
          show c.page 0x12 &&& ~~~v = 0
          rw [h]
          simp
        · exact (put_ne _ _ (Ne.symm ha)).trans h
      · exact h
    · exact h

theorem foldl_zero (b : Nat) (l : List (UInt8 × Nat)) (c : Chip) (h : c.page 0x12 = 0) :
    (l.foldl (fun c x => c.setReg (b + x.2) x.1) c).page 0x12 = 0 := by
  induction l generalizing c with
  | nil => exact h
  | cons x l ih => exact ih _ (setReg_zero c _ _ h)

theorem exec_zero (c : Chip) (o : BusOp) (h : c.page 0x12 = 0) : (c.exec o).page 0x12 = 0 := by
  cases o with
  | mode m =>
    show (c.setIo m).page 0x12 = 0
    unfold Chip.setIo
    split
    · rfl
    · exact h
  | write op data =>
    show (if op.length = 1 then c.write (op.headD 0).toNat data else c).page 0x12 = 0
    split
    · unfold Chip.write
      split
      · exact h
      · split
        · unfold Chip.setFifo
          split
          · exact h
          · exact h
        · exact foldl_zero _ _ c h
    · exact h
  | read op n =>
    show (if op.length = 1 then c.read (op.headD 0).toNat n else c).page 0x12 = 0
    split
    · unfold Chip.read
      split
      · exact h
      · exact h
    · exact h

theorem pins_zero {c : Chip} (h : c.page 0x12 = 0) : Spec.Irq127.dio0 c = false ∧ Spec.Irq127.dio1 c = false := by
  have hf : ∀ b, flag c b = false := by
    intro b
    unfold flag
    rw [h]
    exact Nat.zero_testBit b
  unfold Spec.Irq127.dio0 Spec.Irq127.dio1
  constructor
  · split <;> simp [hf]
  · split <;> simp [hf]

theorem become_low {w : Pins} {c : Chip} (h0 : Spec.Irq127.dio0 c = true → Spec.Irq127.dio0 w.chip = true)
    (h1 : Spec.Irq127.dio1 c = true → Spec.Irq127.dio1 w.chip = true) : (w.become c).calls = w.calls := by
  unfold Pins.become
  simp only
  have e0 : (!Spec.Irq127.dio0 w.chip && Spec.Irq127.dio0 c) = false := by
    cases h : Spec.Irq127.dio0 c
    · exact Bool.and_false _
    · rw [h0 h]; rfl
  have e1 : (!Spec.Irq127.dio1 w.chip && Spec.Irq127.dio1 c) = false := by
    cases h : Spec.Irq127.dio1 c
    · exact Bool.and_false _
    · rw [h1 h]; rfl
  rw [e0, e1]
  rfl

theorem become_zero {w : Pins} {c : Chip} (h : c.page 0x12 = 0) : (w.become c).calls = w.calls := by
  obtain ⟨h0, h1⟩ := pins_zero h
  refine become_low ?_ ?_
  · rw [h0]; intro h; cases h
  · rw [h1]; intro h; cases h

theorem run_chip (ops : List BusOp) (w : Pins) : (w.run ops).chip = w.chip.run ops := by
  induction ops generalizing w with
  | nil => rfl
  | cons o l ih => exact ih (w.become (w.chip.exec o))

theorem pins_append (w : Pins) (a b : List BusOp) : w.run (a ++ b) = (w.run a).run b := List.foldl_append

/-- No call while no flag is pending. -/
theorem run_zero (ops : List BusOp) (w : Pins) (h : w.chip.page 0x12 = 0) :
    (w.run ops).calls = w.calls ∧ (w.run ops).chip.page 0x12 = 0 := by
  induction ops generalizing w with
  | nil => exact ⟨rfl, h⟩
  | cons o l ih =>
    have hz := exec_zero w.chip o h
    obtain ⟨h1, h2⟩ := ih (w.become (w.chip.exec o)) hz
    exact ⟨h1.trans (become_zero hz), h2⟩

/-! ### Calls that can only make the pins fall -/

inductive Calm : BusOp → Prop
  | mode (m : ChipMode) (h : m ≠ .reset) : Calm (.mode m)
  | read (a : Nat) (ha : a < 128) (h0 : a ≠ 0) : Calm (readReg a)
  | fifo (n : Nat) : Calm (burstRead RegFifo n)
  | page (a v : Nat) (ha : Chip.paged a = true) (h12 : a ≠ 0x12) : Calm (writeReg a v)
  | clear : Calm (writeReg RegIrqFlags 0xff)
  | standby : Calm (writeReg RegOpMode 0x81)

/-- The pins can only have fallen. -/
structure Falls (c c' : Chip) : Prop where
  io : c'.io ≠ .reset
  lora : c'.lora = true
  map : c'.common 0x40 = c.common 0x40
  flags : c'.page 0x12 = c.page 0x12 ∨ c'.page 0x12 = 0

theorem Calm.falls {o : BusOp} (h : Calm o) (c : Chip) (hr : c.io ≠ .reset) (hl : c.lora = true) : Falls c (c.exec o) := by
  cases h with
  | mode m hm => rw [exec_mode c m hm]; exact ⟨hm, hl, rfl, Or.inl rfl⟩
  | read a ha h0 => rw [exec_readReg c a ha h0]; exact ⟨hr, hl, rfl, Or.inl rfl⟩
  | fifo n =>
    obtain ⟨v, h | h⟩ := exec_burstRead c n
    · rw [h]; exact ⟨hr, hl, rfl, Or.inl rfl⟩
    · rw [h]; exact ⟨hr, hl, rfl, Or.inl rfl⟩
  | page a v ha h12 =>
    rw [exec_page c a v ha h12 hr hl]
    exact ⟨hr, hl, rfl, Or.inl (put_ne _ _ (Ne.symm h12))⟩
  | clear =>
    rw [exec_irq c 0xff hr hl]
    refine ⟨hr, hl, rfl, Or.inr ?_⟩
    show c.page 0x12 &&& ~~~UInt8.ofNat 0xff = 0
    exact and_not_ones _
  | standby =>
    rw [exec_opMode c _ hr, setOpMode_quiet c _ (by decide) (by decide)]
    refine ⟨hr, ?_, rfl, Or.inl rfl⟩
    show (if c.mode = 0 then decide _ else c.lora) = true
    split
    · decide
    · exact hl

theorem Falls.pins {c c' : Chip} (h : Falls c c') (hl : c.lora = true) :
    (Spec.Irq127.dio0 c' = true → Spec.Irq127.dio0 c = true) ∧ (Spec.Irq127.dio1 c' = true → Spec.Irq127.dio1 c = true) := by
  rcases h.flags with hf | hf
  · have e0 : Spec.Irq127.dio0 c' = Spec.Irq127.dio0 c := by
      unfold Spec.Irq127.dio0 flag Chip.dio0
      rw [hf, h.map, h.lora, hl]
    have e1 : Spec.Irq127.dio1 c' = Spec.Irq127.dio1 c := by
      unfold Spec.Irq127.dio1 flag Chip.dio1
      rw [hf, h.map, h.lora, hl]
    rw [e0, e1]
    exact ⟨id, id⟩
  · obtain ⟨h0, h1⟩ := pins_zero hf
    rw [h0, h1]
    exact ⟨fun h => absurd h (by decide), fun h => absurd h (by decide)⟩

theorem run_calm (ops : List BusOp) (hc : ∀ o ∈ ops, Calm o) (w : Pins) (hr : w.chip.io ≠ .reset) (hl : w.chip.lora = true) :
    (w.run ops).calls = w.calls ∧ Falls w.chip (w.run ops).chip := by
  induction ops generalizing w with
  | nil => exact ⟨rfl, hr, hl, rfl, Or.inl rfl⟩
  | cons o l ih =>
    have hf := (hc o (List.mem_cons_self ..)).falls w.chip hr hl
    obtain ⟨g0, g1⟩ := hf.pins hl
    obtain ⟨h1, h2⟩ := ih (fun o ho => hc o (List.mem_cons_of_mem _ ho)) (w.become (w.chip.exec o)) hf.io hf.lora
    refine ⟨h1.trans (become_low g0 g1), h2.io, h2.lora, h2.map.trans hf.map, ?_⟩
    rcases h2.flags with h | h
    · rcases hf.flags with h' | h'
      · exact Or.inl (h.trans h')
      · exact Or.inr (h.trans h')
    · exact Or.inr h

theorem maskIrq_calm : ∀ o ∈ maskIrq, Calm o := by
  intro o ho
  rcases List.mem_cons.1 ho with rfl | ho
  · exact .clear
  · rcases List.mem_cons.1 ho with rfl | ho
    · exact .page _ _ (by decide) (by decide)
    · cases ho

theorem maskIrq_after (c : Chip) (hr : c.io ≠ .reset) (hl : c.lora = true) :
    (c.run maskIrq).page 0x12 = 0 ∧ (c.run maskIrq).page 0x11 = 0xff := by
  unfold maskIrq
  simp only [run_cons, run_nil]
  have h1 := exec_irq c 0xff hr hl
  rw [and_not_ones] at h1
  generalize c.exec (writeReg RegIrqFlags 0xff) = c1 at h1 ⊢
  rw [exec_page c1 RegIrqFlagsMask 0xff (by decide) (by decide) (by rw [h1]; exact hr) (by rw [h1]; exact hl), h1]
  exact ⟨rfl, rfl⟩

/-! ### The invariant -/

/-- Nothing the chip does gives an interrupt. -/
structure Quiet (c : Chip) : Prop where
  flags : c.page 0x12 = 0
  mask : c.mode = 3 ∨ c.mode = 6 → c.page 0x11 = 0xff

/-- The end of what the chip does gives one interrupt. -/
structure Armed (c : Chip) : Prop where
  tx : c.mode = 3 → c.page 0x12 = 0 ∧ c.page 0x11 = 0xf7 ∧ c.common 0x40 = 0x40
  rx : c.mode = 6 → c.page 0x12 = 0 ∧ c.page 0x11 = 0x3f ∧ c.common 0x40 = 0

structure Inv (l : List Event) (p : Phase) (w : Pins) (k : Nat) : Prop where
  count : k = w.calls
  armed : waits l = true → (p = .receiving ∨ p = .transmitting) ∧ Armed w.chip
  quiet : waits l = false → p ≠ .unknown → Quiet w.chip
  start : p = .unknown → w.chip.mode ≠ 3 ∧ w.chip.mode ≠ 6

theorem bits (x : UInt8) : (x &&& 0xC8 = 0x08 → x &&& ~~~0xf7 = 0x08) ∧ (x &&& 0xC8 = 0x40 → x &&& ~~~0x3f = 0x40) ∧
    (x &&& 0xC8 = 0x80 → x &&& ~~~0x3f = 0x80) ∧ x &&& ~~~0xff = 0 := by
  have key : ∀ i : Fin 256, (UInt8.ofNat i.val &&& 0xC8 = 0x08 → UInt8.ofNat i.val &&& ~~~0xf7 = 0x08) ∧
      (UInt8.ofNat i.val &&& 0xC8 = 0x40 → UInt8.ofNat i.val &&& ~~~0x3f = 0x40) ∧
      (UInt8.ofNat i.val &&& 0xC8 = 0x80 → UInt8.ofNat i.val &&& ~~~0x3f = 0x80) ∧ UInt8.ofNat i.val &&& ~~~0xff = 0 := by
    decide +kernel
  have h := key ⟨x.toNat, x.toNat_lt⟩
  rw [show UInt8.ofNat x.toNat = x from UInt8.ofNat_toNat] at h
  exact h

/-- What is seen of an act: flags raised, and whatever the pins need. -/
structure Acted (c c' : Chip) (x : UInt8) : Prop where
  mode : c'.mode = 1
  lora : c'.lora = c.lora
  map : c'.common 0x40 = c.common 0x40
  flags : c'.page 0x12 = c.page 0x12 ||| (x &&& ~~~c.page 0x11)
  mask : c'.page 0x11 = c.page 0x11
  kind : (c.mode = 3 ∧ x &&& 0xC8 = 0x08) ∨ (c.mode = 6 ∧ x &&& 0xC8 = 0x80) ∨ (c.mode = 6 ∧ x &&& 0xC8 = 0x40)

theorem acted {c c' : Chip} (h : c.Acts c') : ∃ x, Acted c c' x := by
  cases h with
  | txDone x hm hx => exact ⟨x, rfl, rfl, rfl, rfl, rfl, Or.inl ⟨hm, hx⟩⟩
  | rxTimeout x hm hx => exact ⟨x, rfl, rfl, rfl, rfl, rfl, Or.inr (Or.inl ⟨hm, hx⟩)⟩
  | rxDone x packet snr rssi hm hx hl =>
    exact ⟨x, rfl, rfl, rfl, rfl, rfl, Or.inr (Or.inr ⟨hm, hx⟩)⟩

theorem become_one {w : Pins} {c : Chip} (hz : w.chip.page 0x12 = 0)
    (h : (Spec.Irq127.dio0 c = true ∧ Spec.Irq127.dio1 c = false) ∨ (Spec.Irq127.dio0 c = false ∧ Spec.Irq127.dio1 c = true)) :
    (w.become c).calls = w.calls + 1 := by
  obtain ⟨h0, h1⟩ := pins_zero hz
  unfold Pins.become
  simp only
  rw [h0, h1]
  rcases h with ⟨a, b⟩ | ⟨a, b⟩ <;> rw [a, b] <;> rfl

theorem pins_of {c : Chip} (hl : c.lora = true) {f m : UInt8} (hf : c.page 0x12 = f) (hm : c.common 0x40 = m) :
    Spec.Irq127.dio0 c = (match m.toNat / 64 with
      | 0 => f.toNat.testBit 6 | 1 => f.toNat.testBit 3 | 2 => f.toNat.testBit 2 | _ => false) ∧
    Spec.Irq127.dio1 c = (match m.toNat / 16 % 4 with
      | 0 => f.toNat.testBit 7 | 1 => f.toNat.testBit 1 | 2 => f.toNat.testBit 0 | _ => false) := by
  subst hf hm
  unfold Spec.Irq127.dio0 Spec.Irq127.dio1 flag Chip.dio0 Chip.dio1
  rw [hl]
  exact ⟨rfl, rfl⟩

theorem Inv.acts {l : List Event} {p : Phase} {w : Pins} {k : Nat} {d : Driver} {c : Chip} (h : Inv l p w k)
    (hi : Sx127x.In d w.chip p) (ha : w.chip.Acts c) : Inv l p (w.become c) (if waits l then k + 1 else k) := by
  obtain ⟨x, hx⟩ := acted ha
  obtain ⟨b1, b2, b3, b4⟩ := bits x
  have hm1 : (w.become c).chip.mode = 1 := hx.mode
  have harm : Armed (w.become c).chip := ⟨fun h => absurd (hm1.symm.trans h) (by decide), fun h => absurd (hm1.symm.trans h) (by decide)⟩
  have hstart : p = .unknown → (w.become c).chip.mode ≠ 3 ∧ (w.become c).chip.mode ≠ 6 := by
    intro _; rw [hm1]; exact ⟨by decide, by decide⟩
  cases hw : waits l
  · have hu : p ≠ .unknown := by
      intro hu
      obtain ⟨h3, h6⟩ := h.start hu
      rcases hx.kind with ⟨a, _⟩ | ⟨a, _⟩ | ⟨a, _⟩
      · exact h3 a
      · exact h6 a
      · exact h6 a
    have hq := h.quiet hw hu
    have hmask : w.chip.page 0x11 = 0xff := by
      apply hq.mask
      rcases hx.kind with ⟨a, _⟩ | ⟨a, _⟩ | ⟨a, _⟩
      · exact Or.inl a
      · exact Or.inr a
      · exact Or.inr a
    have hz : c.page 0x12 = 0 := by
      rw [hx.flags, hmask, hq.flags, b4]; rfl
    refine ⟨?_, fun h => absurd (hw.symm.trans h) (by decide), fun _ _ => ⟨hz, fun h => ?_⟩, hstart⟩
    · rw [become_zero hz]; exact h.count
    · rw [hm1] at h; rcases h with h | h <;> cases h
  · obtain ⟨hp, hA⟩ := h.armed hw
    have hl : c.lora = true := by
      rw [hx.lora]
      have := hi.fits
      rcases hp with rfl | rfl <;> exact this.2.1
    refine ⟨?_, fun _ => ⟨hp, harm⟩, fun h => absurd (hw.symm.trans h) (by decide), hstart⟩
    show k + 1 = _
    rw [h.count]
    rcases hx.kind with ⟨a, b⟩ | ⟨a, b⟩ | ⟨a, b⟩
    · obtain ⟨f, m, g⟩ := hA.tx a
      obtain ⟨e0, e1⟩ := pins_of hl (f := 0x08) (m := 0x40) (by rw [hx.flags, m, f, b1 b]; rfl) (hx.map.trans g)
      exact (become_one f (Or.inl ⟨e0.trans (by decide), e1.trans (by decide)⟩)).symm
    · obtain ⟨f, m, g⟩ := hA.rx a
      obtain ⟨e0, e1⟩ := pins_of hl (f := 0x80) (m := 0) (by rw [hx.flags, m, f, b3 b]; rfl) (hx.map.trans g)
      exact (become_one f (Or.inr ⟨e0.trans (by decide), e1.trans (by decide)⟩)).symm
    · obtain ⟨f, m, g⟩ := hA.rx a
      obtain ⟨e0, e1⟩ := pins_of hl (f := 0x40) (m := 0) (by rw [hx.flags, m, f, b2 b]; rfl) (hx.map.trans g)
      exact (become_one f (Or.inl ⟨e0.trans (by decide), e1.trans (by decide)⟩)).symm

theorem Quiet.rest {c : Chip} (h : c.page 0x12 = 0) {m : Nat} (hm : c.mode = m) (h3 : m ≠ 3) (h6 : m ≠ 6) : Quiet c :=
  ⟨h, fun hx => hx.elim (fun e => absurd (hm.symm.trans e) h3) fun e => absurd (hm.symm.trans e) h6⟩

/-- The next invariant while the MAC does not wait. -/
theorem Inv.calm {l : List Event} {ev : Event} {p p' : Phase} {w w' : Pins} {k : Nat} (h : Inv l p w k)
    (hw : waits (l ++ [ev]) = false) (hp : p' ≠ .unknown) (hc : w'.calls = w.calls) (hq : Quiet w'.chip) :
    Inv (l ++ [ev]) p' w' k :=
  ⟨h.count.trans hc.symm, fun h => absurd (hw.symm.trans h) (by decide), fun _ _ => hq, fun h => absurd h hp⟩

/-- The next invariant while the MAC waits. -/
theorem Inv.waiting {l : List Event} {ev : Event} {p p' : Phase} {w w' : Pins} {k : Nat} (h : Inv l p w k)
    (hw : waits (l ++ [ev]) = true) (hp : p' = .receiving ∨ p' = .transmitting) (hc : w'.calls = w.calls)
    (ha : Armed w'.chip) : Inv (l ++ [ev]) p' w' k :=
  ⟨h.count.trans hc.symm, fun _ => ⟨hp, ha⟩, fun h => absurd (hw.symm.trans h) (by decide),
    fun h => by rcases hp with rfl | rfl <;> cases h⟩

/-- No flag is pending while the MAC does not wait. -/
theorem Inv.zero {l : List Event} {p : Phase} {w : Pins} {k : Nat} (h : Inv l p w k)
    (hp : p ≠ .unknown ∧ p ≠ .receiving ∧ p ≠ .transmitting) : w.chip.page 0x12 = 0 := by
  cases hw : waits l
  · exact (h.quiet hw hp.1).flags
  · rcases (h.armed hw).1 with e | e
    · exact absurd e hp.2.1
    · exact absurd e hp.2.2

theorem Inv.reset {l : List Event} {p : Phase} {w : Pins} {k : Nat} (h : Inv l p w k) :
    Inv (l ++ [.setMode .reset]) .reset (w.run [.mode .reset]) k := by
  have hz : (w.chip.exec (.mode .reset)).page 0x12 = 0 := rfl
  exact h.calm (waits_append _ _) (by decide) (become_zero hz)
    (.rest hz (m := 1) rfl (by decide) (by decide))

/-- From a phase without a flag to one in which the chip does nothing. -/
theorem Inv.idle {l : List Event} {mode : RadioMode} {p p' : Phase} {w : Pins} {k : Nat} (h : Inv l p w k)
    (hp : p ≠ .unknown ∧ p ≠ .receiving ∧ p ≠ .transmitting) (hp' : p' ≠ .unknown) (ops : List BusOp) {m : Nat}
    (hm : (w.chip.run ops).mode = m) (h3 : m ≠ 3) (h6 : m ≠ 6) : Inv (l ++ [.setMode mode]) p' (w.run ops) k := by
  obtain ⟨h1, h2⟩ := run_zero ops w (h.zero hp)
  exact h.calm (waits_append _ _) hp' h1 (.rest h2 ((congrArg Chip.mode (run_chip ops w)).trans hm) h3 h6)

/-- Interrupts are cleared and masked, then anything. -/
theorem masked_run (w : Pins) (m : ChipMode) (hm : m ≠ .reset) (hr : w.chip.io ≠ .reset) (hl : w.chip.lora = true)
    (pre rest : List BusOp) (hpre : pre = maskIrq ∨ pre = [.mode m] ++ maskIrq) :
    (w.run (pre ++ rest)).calls = w.calls ∧ (w.run (pre ++ rest)).chip.page 0x12 = 0 ∧
      (w.run pre).chip.page 0x11 = 0xff := by
  have hcalm : ∀ o ∈ pre, Calm o := by
    intro o ho
    rcases hpre with rfl | rfl
    · exact maskIrq_calm o ho
    · rcases List.mem_append.1 ho with ho | ho
      · cases List.mem_singleton.1 ho; exact .mode m hm
      · exact maskIrq_calm o ho
  have hend : (w.run pre).chip.page 0x12 = 0 ∧ (w.run pre).chip.page 0x11 = 0xff := by
    rw [run_chip]
    rcases hpre with rfl | rfl
    · exact maskIrq_after _ hr hl
    · rw [run_append]
      have : w.chip.run [.mode m] = { w.chip with io := m } := exec_mode _ m hm
      rw [this]
      exact maskIrq_after _ hm hl
  obtain ⟨h1, _⟩ := run_calm pre hcalm w hr hl
  obtain ⟨h2, h3⟩ := run_zero rest (w.run pre) hend.1
  rw [pins_append]
  exact ⟨h2.trans h1, h3, hend.2⟩

theorem readEntropy_calm : ∀ o ∈ readEntropyOps, Calm o := by
  intro o ho
  unfold readEntropyOps at ho
  rcases List.mem_append.1 ho with ho | ho
  · rcases List.mem_append.1 ho with ho | ho
    · rcases List.mem_append.1 ho with ho | ho
      · rw [List.eq_of_mem_replicate ho]; exact .read _ (by decide) (by decide)
      · cases List.mem_singleton.1 ho; exact .standby
    · cases List.mem_singleton.1 ho; exact .mode _ (by decide)
  · exact maskIrq_calm o ho

theorem readBuffer_calm (rd : Nat → UInt8) (max : Nat) : ∀ o ∈ readBufferOps rd max, Calm o := by
  intro o ho
  unfold readBufferOps at ho
  simp only [List.mem_append] at ho
  rcases ho with (ho | ho) | ho
  · cases List.mem_singleton.1 ho; exact .read _ (by decide) (by decide)
  · split at ho
    · rcases List.mem_cons.1 ho with rfl | ho
      · exact .page _ _ (by decide) (by decide)
      · cases List.mem_singleton.1 ho; exact .fifo _
    · cases ho
  · rcases List.mem_cons.1 ho with rfl | ho
    · exact .read _ (by decide) (by decide)
    · cases List.mem_singleton.1 ho; exact .read _ (by decide) (by decide)

/-- Reading the FIFO changes neither flags nor mask nor mapping. -/
theorem readBuffer_same (c : Chip) (hr : c.io ≠ .reset) (hl : c.lora = true) (max : Nat) :
    (c.run (readBufferOps c.reg max)).page 0x12 = c.page 0x12 ∧ (c.run (readBufferOps c.reg max)).page 0x11 = c.page 0x11 ∧
      (c.run (readBufferOps c.reg max)).common = c.common := by
  unfold readBufferOps
  simp only []
  have hlast : ∀ c : Chip, c.run [readReg RegPktRssiValue, readReg RegPktSnrValue] = c := by
    intro c
    simp only [run_cons, run_nil]
    rw [exec_readReg c _ (by decide) (by decide), exec_readReg c _ (by decide) (by decide)]
  have h1 : c.run [readReg RegRxNbBytes] = c := exec_readReg c RegRxNbBytes (by decide) (by decide)
  rw [run_append, hlast, run_append, h1]
  split
  · simp only [run_cons, run_nil]
    have e := exec_page c RegFifoAddrPtr 0 (by decide) (by decide) hr hl
    generalize c.exec (writeReg RegFifoAddrPtr 0) = c1 at e ⊢
    obtain ⟨v, h | h⟩ := exec_burstRead c1 (fifoSize (c.reg RegRxNbBytes).toNat max)
    · rw [h, e]; exact ⟨rfl, rfl, rfl⟩
    · rw [h, e]; exact ⟨rfl, rfl, rfl⟩
  · exact ⟨rfl, rfl, rfl⟩

/-- Chip and calls as before, as far as interrupts go. -/
theorem Inv.same {l : List Event} {ev : Event} {p : Phase} {w w' : Pins} {k : Nat} (h : Inv l p w k)
    (hw : waits (l ++ [ev]) = waits l) (hc : w'.calls = w.calls) (hm : w'.chip.mode = w.chip.mode)
    (h12 : w'.chip.page 0x12 = w.chip.page 0x12) (h11 : w'.chip.page 0x11 = w.chip.page 0x11)
    (h40 : w'.chip.common 0x40 = w.chip.common 0x40) : Inv (l ++ [ev]) p w' k := by
  refine ⟨h.count.trans hc.symm, fun hx => ?_, fun hx hu => ?_, fun hu => ?_⟩
  · obtain ⟨h1, h2⟩ := h.armed (hw.symm.trans hx)
    refine ⟨h1, fun e => ?_, fun e => ?_⟩
    · rw [h12, h11, h40]; exact h2.tx (hm.symm.trans e)
    · rw [h12, h11, h40]; exact h2.rx (hm.symm.trans e)
  · obtain ⟨h1, h2⟩ := h.quiet (hw.symm.trans hx) hu
    refine ⟨h12.trans h1, fun e => ?_⟩
    rw [hm] at e
    exact h11.trans (h2 e)
  · rw [hm]; exact h.start hu

theorem Inv.readEntropy {l : List Event} {w : Pins} {k : Nat} {d : Driver} (h : Inv l .receiving w k)
    (hi : Sx127x.In d w.chip .receiving) : Inv (l ++ [.readEntropy]) .receiving (w.run readEntropyOps) k := by
  obtain ⟨hr, hl, hm⟩ := hi.live (Or.inr rfl)
  obtain ⟨h1, h2⟩ := run_calm readEntropyOps readEntropy_calm w hr hl
  have hmode : (w.run readEntropyOps).chip.mode = 1 := by
    rw [run_chip]
    unfold readEntropyOps
    rw [List.append_assoc, List.append_assoc, run_append, moves_reads w.chip 32 _ (by decide) (by decide)]
    have g1 := moves_setOpStandby w.chip hr hl
    have g2 := g1.append (moves_io _ .standby (by decide))
    rw [g1.lora, g1.mode] at g2
    have g3 := g2.append (moves_maskIrq _ (by rw [g2.io]; decide) g2.lora)
    rw [g2.io, g2.mode, List.append_assoc] at g3
    exact g3.mode
  have hw := waits_append l .readEntropy
  cases hx : waits l
  · rw [hx] at hw
    refine h.calm hw (by decide) h1 (.rest ?_ hmode (by decide) (by decide))
    rcases h2.flags with e | e
    · exact e.trans (h.quiet hx (by decide)).flags
    · exact e
  · rw [hx] at hw
    exact h.waiting hw (Or.inl rfl) h1 ⟨fun e => absurd (hmode.symm.trans e) (by decide),
      fun e => absurd (hmode.symm.trans e) (by decide)⟩

theorem Inv.sleep {l : List Event} {p : Phase} {w : Pins} {k : Nat} {d : Driver} (h : Inv l p w k)
    (hi : Sx127x.In d w.chip p) (hp : ¬(p = .reset ∨ p = .unknown)) {ops : List BusOp}
    (hop : setModeOps d .sleep w.chip.reg = some ops) (h0 : (w.chip.run ops).mode = 0) :
    Inv (l ++ [.setMode .sleep]) .sleep (w.run ops) k := by
  by_cases hl : p = .receiving ∨ p = .transmitting
  · have hf : w.chip.io ≠ .reset ∧ w.chip.lora = true := by
      have := hi.fits
      rcases hl with rfl | rfl <;> exact ⟨this.1, this.2.1⟩
    have hops : ops = maskIrq ++ ([.mode .sleep] ++ setOpSleep) := by
      have hm := hi.mode
      unfold setModeOps at hop
      rw [hm] at hop
      rcases hl with rfl | rfl <;> exact (Option.some.inj hop).symm
    subst hops
    obtain ⟨h1, h2, _⟩ := masked_run w .sleep (by decide) hf.1 hf.2 maskIrq ([.mode .sleep] ++ setOpSleep) (Or.inl rfl)
    exact h.calm (waits_append _ _) (by decide) h1
      (.rest h2 ((congrArg Chip.mode (run_chip _ w)).trans h0) (by decide) (by decide))
  · exact h.idle ⟨fun e => hp (Or.inr e), fun e => hl (Or.inl e), fun e => hl (Or.inr e)⟩ (by decide) ops h0 (by decide)
      (by decide)

theorem Inv.hold {l : List Event} {p : Phase} {w : Pins} {k : Nat} {d : Driver} (h : Inv l p w k)
    (hi : Sx127x.In d w.chip p) (hp : p = .receiving ∨ p = .transmitting) {ops : List BusOp}
    (hop : setModeOps d .hold w.chip.reg = some ops) (h0 : d.xtal = .crystal → (w.chip.run ops).mode = 0) :
    Inv (l ++ [.setMode .hold]) .hold (w.run ops) k := by
  have hf : w.chip.io ≠ .reset ∧ w.chip.lora = true := by
    have := hi.fits
    rcases hp with rfl | rfl <;> exact ⟨this.1, this.2.1⟩
  have hops : ops = [.mode .standby] ++ maskIrq ++ (if d.xtal = .crystal then setOpSleep else []) := by
    have hm := hi.mode
    unfold setModeOps at hop
    rw [hm] at hop
    rcases hp with rfl | rfl <;> exact (Option.some.inj hop).symm
  obtain ⟨h1, h2, h3⟩ := masked_run w .standby (by decide) hf.1 hf.2 ([.mode .standby] ++ maskIrq)
    (if d.xtal = .crystal then setOpSleep else []) (Or.inr rfl)
  rw [← hops] at h1 h2
  refine h.calm (waits_append _ _) (by decide) h1 ?_
  by_cases hx : d.xtal = .crystal
  · exact .rest h2 ((congrArg Chip.mode (run_chip _ w)).trans (h0 hx)) (by decide) (by decide)
  · refine ⟨h2, fun _ => ?_⟩
    rw [if_neg hx, List.append_nil] at hops
    rw [hops]
    exact h3

theorem Inv.event {l : List Event} {p p' : Phase} {w : Pins} {k : Nat} {d d' : Driver} {ev : Event} {ops : List BusOp}
    (h : Inv l p w k) (hi : Sx127x.In d w.chip p) (ha : accepts p ev = some p') (hf : Fine ev)
    (hp : busOps d w.chip ev = some (d', ops)) : Inv (l ++ [ev]) p' (w.run ops) k := by
  obtain ⟨d2, c2, g1, g2, -⟩ := carries hi ha hf
  rw [perform_busOps, hp] at g1
  obtain ⟨hd2, hc2⟩ : d' = d2 ∧ w.chip.run ops = c2 := by
    have := Option.some.inj g1
    exact Prod.mk.inj this
  subst hd2 hc2
  have nothing : ops = [] → p' = p → waits (l ++ [ev]) = waits l → Inv (l ++ [ev]) p' (w.run ops) k := by
    intro e1 e2 e3
    subst e1 e2
    exact h.same e3 rfl rfl rfl rfl rfl
  cases ev
  case setMode mode =>
    obtain ⟨ops', hop, e⟩ := Option.map_eq_some_iff.1 hp
    obtain ⟨e1, e2⟩ := Prod.mk.inj e
    subst e2
    cases mode
    · cases ha; cases hop; exact h.reset
    · obtain ⟨a1, a2⟩ := Option.ite_none_right_eq_some.1 ha
      subst a1; cases a2
      exact h.idle ⟨by decide, by decide, by decide⟩ (by decide) _ g2.fits.2.2 (by decide) (by decide)
    · obtain ⟨a1, a2⟩ := Option.ite_none_left_eq_some.1 ha
      cases a2; exact h.sleep hi a1 hop g2.fits.2.2
    · obtain ⟨a1, a2⟩ := Option.ite_none_right_eq_some.1 ha
      cases a2
      obtain ⟨ops2, io, m, k1, k2, _, _, k5⟩ := ready_ops hi a1 .rx (Or.inl rfl)
      cases hop.symm.trans k1
      have hph : p ≠ .unknown ∧ p ≠ .receiving ∧ p ≠ .transmitting := by
        rcases a1 with rfl | rfl <;> exact ⟨by decide, by decide, by decide⟩
      rcases k5 with k5 | k5
      · exact h.idle hph (by decide) _ (k2.mode.trans k5) (by decide) (by decide)
      · subst k5
        have hw : waits l = false := by
          cases hx : waits l
          · rfl
          · rcases (h.armed hx).1 with e | e
            · exact absurd e hph.2.1
            · exact absurd e hph.2.2
        exact h.calm (waits_append _ _) (by decide) rfl (h.quiet hw hph.1)
    · obtain ⟨a1, a2⟩ := Option.ite_none_right_eq_some.1 ha
      cases a2
      subst a1
      obtain ⟨ops2, io, m, k1, k2, _, _, k5⟩ := ready_ops hi (Or.inl rfl) .tx (Or.inr rfl)
      cases hop.symm.trans k1
      rcases k5 with k5 | k5
      · exact h.idle ⟨by decide, by decide, by decide⟩ (by decide) _ (k2.mode.trans k5) (by decide) (by decide)
      · subst k5
        exact h.idle ⟨by decide, by decide, by decide⟩ (by decide) _ hi.fits.2.2 (by decide) (by decide)
    · obtain ⟨a1, a2⟩ := Option.ite_none_right_eq_some.1 ha
      cases a2
      refine h.hold hi a1 hop fun hx => ?_
      refine g2.fits.2.2.1 ?_
      rw [← e1]
      exact hx
  case transmit t s data =>
    obtain ⟨a1, a2⟩ := Option.ite_none_right_eq_some.1 ha
    subst a1; cases a2; cases hp
    have hfits := hi.fits
    have hs := transmit_sent d w.chip s data hi.kind hfits.2.1 hfits.2.2 (hi.kept (by decide)).preamble hf.2.1 hf.1
    obtain ⟨h1, _⟩ := run_zero (transmit d s data) w (h.zero ⟨by decide, by decide, by decide⟩)
    refine h.waiting (waits_append _ _) (Or.inr rfl) h1 ?_
    rw [run_chip]
    exact ⟨fun _ => ⟨hs.flags, hs.mask, hs.map⟩, fun e => by rw [hs.mode] at e; cases e⟩
  case receive t s =>
    obtain ⟨a1, a2⟩ := Option.ite_none_right_eq_some.1 ha
    subst a1; cases a2; cases hp
    have hfits := hi.fits
    have hs := receive_opened d w.chip s hi.kind hfits.2.1 hfits.2.2 (hi.kept (by decide)).preamble hf.2 hf.1
    obtain ⟨h1, _⟩ := run_zero (receive d s) w (h.zero ⟨by decide, by decide, by decide⟩)
    refine h.waiting (waits_append _ _) (Or.inl rfl) h1 ?_
    rw [run_chip]
    exact ⟨fun e => (by rw [hs.mode] at e; cases e), fun _ => ⟨hs.flags, hs.mask, hs.map⟩⟩
  case receiveEntropy =>
    obtain ⟨a1, a2⟩ := Option.ite_none_right_eq_some.1 ha
    subst a1; cases a2; cases hp
    obtain ⟨h1, h2⟩ := run_zero (receiveEntropy d) w (h.zero ⟨by decide, by decide, by decide⟩)
    refine h.calm (waits_append _ _) (by decide) h1 (.rest h2 (m := 5) ?_ (by decide) (by decide))
    rw [run_chip]
    exact (moves_receiveEntropy hi).mode
  case readEntropy =>
    obtain ⟨a1, a2⟩ := Option.ite_none_right_eq_some.1 ha
    subst a1; cases a2; cases hp
    exact h.readEntropy hi
  case readBuffer =>
    obtain ⟨a1, a2⟩ := Option.ite_none_right_eq_some.1 ha
    subst a1; cases a2; cases hp
    obtain ⟨hr, hl, hm⟩ := hi.live (Or.inr rfl)
    obtain ⟨e1, e2, e3⟩ := readBuffer_same w.chip hr hl 255
    refine h.same (waits_append _ _) (run_calm _ (readBuffer_calm _ _) w hr hl).1 ?_ ?_ ?_ ?_
    all_goals rw [run_chip]
    · exact (moves_readBuffer w.chip hr hl 255).mode
    · exact e1
    · exact e2
    · rw [e3]
  case getStatus =>
    obtain ⟨a1, a2⟩ := Option.ite_none_right_eq_some.1 ha
    cases a2; cases hp
    have hf2 : w.chip.io ≠ .reset ∧ w.chip.lora = true := by
      have := hi.fits
      rcases a1 with rfl | rfl <;> exact ⟨this.1, this.2.1⟩
    have hcalm : ∀ o ∈ [readReg RegIrqFlags], Calm o := by
      intro o ho
      cases List.mem_singleton.1 ho
      exact .read _ (by decide) (by decide)
    have hc : (w.run [readReg RegIrqFlags]).chip = w.chip := by
      rw [run_chip]
      exact exec_readReg w.chip RegIrqFlags (by decide) (by decide)
    refine h.same (waits_append _ _) (run_calm _ hcalm w hf2.1 hf2.2).1 ?_ ?_ ?_ ?_
    all_goals rw [hc]
  all_goals
    cases hp
    exact nothing rfl (Option.some.inj ha).symm (waits_append _ _)

theorem plays_pins {d : Driver} {w : Pins} {l : List Event} {d' : Driver} {w' : Pins} {k : Nat}
    (h : Pins.Plays d w l d' w' k) : Spec.Sx127x.Plays d w.chip l d' w'.chip := by
  induction h with
  | start => exact .start
  | acts _ ha ih => exact .acts ih ha
  | event _ ev hp ih =>
    refine .event ih ev ?_
    rw [perform_busOps, hp, run_chip]
    rfl

theorem pins_inv {d : Driver} {w : Pins} {p : Phase} {l : List Event} {d' : Driver} {w' : Pins} {k : Nat}
    (h : Pins.Plays d w l d' w' k) (hi : Sx127x.In d w.chip p) (h0 : Inv [] p w 0) {p' : Phase}
    (hf : follow p l = some p') (hfine : ∀ x ∈ l, Fine x) : Inv l p' w' k := by
  induction h generalizing p' with
  | start => cases hf; exact h0
  | acts hpl ha ih => exact (ih hf hfine).acts (plays_done hi (plays_pins hpl) hf hfine).1 ha
  | event hpl ev hp ih =>
    rw [follow_append] at hf
    obtain ⟨q, h1, h2⟩ := Option.bind_eq_some_iff.1 hf
    have ha : accepts q ev = some p' := by
      obtain ⟨q', g1, g2⟩ := Option.bind_eq_some_iff.1 h2
      cases g2
      exact g1
    have hfl := fun x hx => hfine x (List.mem_append_left _ hx)
    exact (ih h1 hfl).event (plays_done hi (plays_pins hpl) h1 hfl).1 ha
      (hfine ev (List.mem_append_right _ (List.mem_singleton.2 rfl))) hp

end Irq127
end LDL
