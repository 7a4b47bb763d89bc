import Verif.Lemmas.Irq127
import Verif.Props.Irq
import Verif.Props.Sx127x

/-!
# C95: interrupts reach the MAC (SX1272, SX1276)
-/

namespace LDL
open LDL.Spec LDL.Spec.Sx127x LDL.Sx127x LDL.Spec.Irq127

/-- **C95** on the SX1272 and SX1276: at any time in any execution the event handler of the MAC has been called exactly
once for each transmission and each receive window that has ended while the MAC waited for it, and for nothing else.  The
chip is not in the middle of something when the device starts. -/
theorem c95_sx127x {cfg : Cfg} (hE : ∀ k, BlockFn (cfg.E k)) {m : Mac} (hr : Reachable cfg m) (kind : Sx127x.Kind) (x : Xtal)
    (pa : Pa) (gain : Int) (hg : -29000 ≤ gain ∧ gain ≤ 32767) (c : Chip) (hc : c.kind = kind)
    (hm : c.mode ≠ 3 ∧ c.mode ≠ 6) (l l' : List Event) (hl : m.out = l ++ l') (d' : Driver) (w' : Pins) (k : Nat)
    (hp : Pins.Plays (Sx127x.init kind x pa gain) ⟨c, 0⟩ l d' w' k) : k = w'.calls := by
  obtain ⟨p, h1⟩ := follow_start hr l l' hl
  refine (Irq127.pins_inv hp (start_in kind x pa gain hg c hc) ⟨rfl, fun h => ?_, fun _ h => absurd rfl h, fun _ => hm⟩ h1
    fun y hy => reachable_fine hE hr y (by rw [hl]; exact List.mem_append_left _ hy)).count
  cases h

/-- **C95** on the SX1272 and SX1276: when a transmission or a receive window the MAC waits for ends, one more call is
made. -/
theorem c95_sx127x_ready {cfg : Cfg} (hE : ∀ k, BlockFn (cfg.E k)) {m : Mac} (hr : Reachable cfg m) (kind : Sx127x.Kind) (x : Xtal)
    (pa : Pa) (gain : Int) (hg : -29000 ≤ gain ∧ gain ≤ 32767) (c : Chip) (hc : c.kind = kind)
    (hm : c.mode ≠ 3 ∧ c.mode ≠ 6) (l l' : List Event) (hl : m.out = l ++ l') (d' : Driver) (w' : Pins) (k : Nat)
    (hp : Pins.Plays (Sx127x.init kind x pa gain) ⟨c, 0⟩ l d' w' k) (ha : waits l = true) (c2 : Chip)
    (h2 : w'.chip.Acts c2) : (w'.become c2).calls = w'.calls + 1 := by
  have h := c95_sx127x hE hr kind x pa gain hg c hc hm l l' hl d' w' k hp
  have h' := c95_sx127x hE hr kind x pa gain hg c hc hm l l' hl d' _ _ (.acts hp h2)
  rw [if_pos ha] at h'
  omega

/-! ### A case -/

/-- History, driver, chip and calls, ended operations. -/
structure Demo.Dios where
  l : List Event
  d : Driver
  w : Pins
  k : Nat

def Demo.ended127 (c : Chip) (x : UInt8) : Chip := { c with mode := 1, page := c.raise x }

def Demo.next127 (s : Demo.Dios) : Demo.Next → Option Demo.Dios
  | .event ev _ => (busOps s.d s.w.chip ev).map fun x => { s with l := s.l ++ [ev], d := x.1, w := s.w.run x.2 }
  | .ends =>
    if s.w.chip.mode = 3 then
      some { s with w := s.w.become (Demo.ended127 s.w.chip 0x08), k := if waits s.l then s.k + 1 else s.k }
    else if s.w.chip.mode = 6 then
      some { s with w := s.w.become (Demo.ended127 s.w.chip 0x80), k := if waits s.l then s.k + 1 else s.k }
    else none
  | .irq => none

theorem Demo.next127_plays {d : Driver} {w : Pins} {s s' : Demo.Dios} {n : Demo.Next} (h : Pins.Plays d w s.l s.d s.w s.k)
    (hn : Demo.next127 s n = some s') : Pins.Plays d w s'.l s'.d s'.w s'.k := by
  cases n with
  | event ev busy =>
    obtain ⟨x, h1, h2⟩ := Option.map_eq_some_iff.1 hn
    cases h2
    exact .event h ev h1
  | ends =>
    simp only [Demo.next127] at hn
    split at hn
    · next hm => cases hn; exact .acts h (.txDone _ _ hm (by decide))
    · split at hn
      · next hm => cases hn; exact .acts h (.rxTimeout _ _ hm (by decide))
      · cases hn
  | irq => cases hn

/-- What has happened after a list of steps. -/
def Demo.dios (x : Xtal) (l : List Demo.Next) : Option Demo.Dios :=
  l.foldl (fun o n => o.bind fun s => Demo.next127 s n) (some ⟨[], Sx127x.init .sx1276 x .boost 0, ⟨Demo.chip, 0⟩, 0⟩)

theorem Demo.dios_plays (x : Xtal) (l : List Demo.Next) (s : Demo.Dios) (h : Demo.dios x l = some s) :
    Pins.Plays (Sx127x.init .sx1276 x .boost 0) ⟨Demo.chip, 0⟩ s.l s.d s.w s.k := by
  have gen : ∀ (l : List Demo.Next) (o : Option Demo.Dios),
      (∀ s, o = some s → Pins.Plays (Sx127x.init .sx1276 x .boost 0) ⟨Demo.chip, 0⟩ s.l s.d s.w s.k) →
      ∀ s, l.foldl (fun o n => o.bind fun s => Demo.next127 s n) o = some s →
        Pins.Plays (Sx127x.init .sx1276 x .boost 0) ⟨Demo.chip, 0⟩ s.l s.d s.w s.k := by
    intro l
    induction l with
    | nil => intro o ho s hs; exact ho s hs
    | cons n l ih =>
      intro o ho s hs
      refine ih _ (fun s1 h1 => ?_) s hs
      obtain ⟨s0, h2, h3⟩ := Option.bind_eq_some_iff.1 h1
      exact Demo.next127_plays (ho s0 h2) h3
  exact gen l _ (fun s hs => by cases hs; exact .start) s h

/-- A transmission, RX1 to its end, and RX2 to its end, after a search for noise. -/
def Demo.exchange127 : List Demo.Next :=
  Demo.evs (Demo.toTx.dropLast ++ [.setMode .rx, .receiveEntropy, .readEntropy, .setMode .sleep, .setMode .tx, Demo.uplink]) ++
  [.ends] ++ Demo.evs [.getStatus, .setMode .hold, .setMode .rx, Demo.window] ++ [.ends] ++
  Demo.evs [.getStatus, .setMode .hold, .setMode .rx, Demo.window] ++ [.ends]

/-- C95 applies to a transmission and two windows: three calls have been made. -/
example : (Demo.dios .crystal Demo.exchange127).map (fun s => (s.k, s.w.calls, s.w.chip.mode)) = some (3, 3, 1) := by
  decide +kernel

/-- With a temperature compensated oscillator a window the MAC no longer waits for ends without a call. -/
example : (Demo.dios .tcxo (Demo.evs (Demo.toTx.dropLast ++ [.setMode .rx, Demo.window, .setMode .hold]))).map
      (fun s => (s.k, s.w.calls, s.w.chip.mode)) = some (0, 0, 6) ∧
    (Demo.dios .tcxo (Demo.evs (Demo.toTx.dropLast ++ [.setMode .rx, Demo.window, .setMode .hold]) ++ [.ends])).map
      (fun s => (s.k, s.w.calls, s.w.chip.mode)) = some (0, 0, 1) := by decide +kernel

end LDL
