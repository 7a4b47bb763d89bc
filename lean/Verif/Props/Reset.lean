import Verif.Lemmas.Reset
import Verif.Lemmas.Demo
import Verif.Props.Irq
import Verif.Props.Sx127x

/-!
# C96: the reset line
-/

namespace LDL
open LDL.Spec LDL.MbedReset LDL.Spec.Reset

/-- **C96** on the SX1261 and SX1262: at any time in any execution the chip is held in reset exactly while reset is the last
mode the MAC has asked for, and it has not been accessed while in reset. -/
theorem c96_sx126x {cfg : Cfg} {m : Mac} (hr : Reachable cfg m) (d : Sx126x.Driver) (l l' : List Event)
    (hl : m.out = l ++ l') (d' : Sx126x.Driver) (s' : Line) (hp : Plays Driver126 level126 d ⟨pin126, false⟩ l d' s') :
    asserted level126 s'.pin = wanted false l ∧ s'.clash = false := by
  obtain ⟨p, h1⟩ := follow_start hr l l' hl
  obtain ⟨h2, h3, _⟩ := Reset.plays_line Reset.good126 (by rfl) (by rfl) hp h1
  exact ⟨h2, h3⟩

/-- **C96** on the STM32WL55, whose radio may be in reset when the device starts (`b`). -/
theorem c96_wl55 {cfg : Cfg} {m : Mac} (hr : Reachable cfg m) (d : Sx126x.Driver) (b : Bool) (l l' : List Event)
    (hl : m.out = l ++ l') (d' : Sx126x.Driver) (s' : Line)
    (hp : Plays Driver126 levelWl55 d ⟨{ value := true, output := b }, false⟩ l d' s') :
    asserted levelWl55 s'.pin = wanted b l ∧ s'.clash = false := by
  obtain ⟨p, h1⟩ := follow_start hr l l' hl
  obtain ⟨h2, h3, _⟩ := Reset.plays_line Reset.good126 (by rfl) (by rfl) hp h1
  refine ⟨h2.trans ?_, h3⟩
  cases b <;> rfl

/-- **C96** on the SX1272. -/
theorem c96_sx1272_partial {cfg : Cfg} {m : Mac} (hr : Reachable cfg m) (d : Sx127x.Driver) (l l' : List Event)
    (hl : m.out = l ++ l') (d' : Sx127x.Driver) (s' : Line)
    (hp : Plays Driver127 (level127 .sx1272) d ⟨pin127, false⟩ l d' s') :
    asserted (level127 .sx1272) s'.pin = wanted false l ∧ s'.clash = false := by
  obtain ⟨p, h1⟩ := follow_start hr l l' hl
  obtain ⟨h2, h3, _⟩ := Reset.plays_line Reset.good127 (by rfl) (by rfl) hp h1
  exact ⟨h2, h3⟩

/-- **C96** is false on the SX1276: the wrapper drives its line high, the chip is never held in reset, in no execution of
the MAC. -/
theorem c96_sx1276_never (d : Sx127x.Driver) (l : List Event) (d' : Sx127x.Driver) (s' : Line)
    (hp : Plays Driver127 (level127 .sx1276) d ⟨pin127, false⟩ l d' s') : asserted (level127 .sx1276) s'.pin = false := by
  have h : s'.pin.value = true := Reset.plays_value hp
  unfold asserted
  rw [h]
  exact Bool.and_false _

/-- **C96** is false on the SX1276: the MAC asks for a reset, and there is none. -/
theorem c96_sx1276_not : ∃ (m : Mac) (d : Sx127x.Driver) (s' : Line), Reachable Demo.cfg m ∧
    Plays Driver127 (level127 .sx1276) d ⟨pin127, false⟩ m.out d s' ∧ wanted false m.out = true ∧
    asserted (level127 .sx1276) s'.pin = false := by
  have ho : (run Demo.cfg Demo.start (Demo.processAt [0])).out = [.setMode .reset] := rfl
  refine ⟨run Demo.cfg Demo.start (Demo.processAt [0]), Sx127x.init .sx1276 .crystal .boost 0,
    Line.run (level127 .sx1276) ⟨pin127, false⟩ [.mode .reset],
    Demo.run_reach Demo.start_reachable _ (by decide), ?_, by rw [ho]; rfl, rfl⟩
  rw [ho]
  exact .event .start (.setMode .reset) ⟨Demo.chip, rfl⟩

/-! ### Cases -/

/-- Whether the chip is held in reset after each event of a history; accesses all succeed. -/
def Demo.resets (l : List Event) : List Bool :=
  let next := fun (x : Option (Sx126x.Driver × Line)) (ev : Event) => x.bind fun x =>
    (Irq.busOps x.1 Demo.chip126 (fun _ => false) ev).map fun y => (y.1, x.2.run level126 y.2)
  (l.inits.map fun l => ((l.foldl next (some (Demo.board126.driver, ⟨pin126, false⟩))).map
    fun x => asserted level126 x.2.pin).getD false)

/-- A start, an uplink, and a restart. -/
example : Demo.resets (Demo.toTx ++ [Demo.uplink, .setMode .reset, .setMode .boot, .setMode .sleep]) =
    [false, true, false, false, false, false, true, false, false] := by decide +kernel

end LDL
