import Verif.Lemmas.Oscillator
import Verif.Props.Sx127x

/-!
# The oscillator of the SX1272 and SX1276 (C92)
-/

namespace LDL
open Spec (Phase follow RadioIn Reachable)
open Spec.Sx127x
open Sx127x (Driver Kind Pa)

/-- Bit 4 of a byte that had it set. -/
theorem testBit_or16 (v : UInt8) : (v ||| 0x10).toNat.testBit 4 = true := by
  rw [UInt8.toNat_or, Nat.testBit_or, Bool.or_eq_true]
  exact Or.inr (by decide)

/-- **C92**: from the first reset on, at every moment of every execution at which the oscillator runs, RegTcxo has the
bit for a TCXO if a TCXO was configured, and otherwise is as after a reset; its other bits are always as after a
reset. -/
theorem c92_register {cfg : Cfg} (hE : ∀ k, BlockFn (cfg.E k)) {m : Mac} (hr : Reachable cfg m) (k : Kind) (x : Xtal)
    (pa : Pa) (gain : Int) (hg : -29000 ≤ gain ∧ gain ≤ 32767) (c : Chip) (hc : c.kind = k)
    (l l' : List Event) (hl : m.out = l ++ l') (hreset : Event.setMode .reset ∈ l)
    (d1 : Driver) (c1 : Chip) (hp : Plays (Sx127x.init k x pa gain) c l d1 c1) (hon : c1.clocked) :
    c1.reg (tcxoReg k) = if x = .tcxo then c.defaults (tcxoReg k) ||| 0x10 else c.defaults (tcxoReg k) := by
  obtain ⟨p, h1, _⟩ := reachable_says hr
  have hf := reachable_fine hE hr
  rw [hl, follow_append] at h1
  obtain ⟨q, h2, _⟩ := Option.bind_eq_some_iff.1 h1
  have hfine : ∀ y ∈ l, Spec.Fine y := fun y hy => hf y (by rw [hl]; exact List.mem_append_left _ hy)
  have hi := start_in k x pa gain hg c hc
  obtain ⟨hin, hd⟩ := Sx127x.plays_done hi hp h2 hfine
  have ho := Sx127x.plays_osc hi hp h2 hfine
  have hu := Sx127x.follow_known h2 (Or.inr hreset)
  have ht : d1.type = k := hd.same.1
  have hx : d1.xtal = x := hd.same.2.1
  have hreg : c1.reg (tcxoReg k) = c1.common (tcxoReg k) := by cases k <;> rfl
  have o2 := ho.reg hu
  have o3 := ho.on
  rw [ht, hx] at o2 o3
  rw [hreg]
  by_cases hxt : x = .tcxo
  · rw [if_pos hxt]
    refine o3 hxt hu ?_ ?_ ?_
    · rintro rfl; have := hin.fits.2.1; rw [hon.1] at this; cases this
    · rintro rfl; have := hin.fits.2.1; rw [hon.1] at this; cases this
    · rintro rfl; exact hon.2 hin.fits.2.2
  · rw [if_neg hxt]
    rcases o2 with h | h
    · exact h
    · exact absurd h.1 hxt

/-- **C92**: whenever the driver is asked to send or to listen, the oscillator runs, and from the source that was
configured (the reset value of the bit, by the data sheets, is zero). -/
theorem c92_oscillator {cfg : Cfg} (hE : ∀ k, BlockFn (cfg.E k)) {m : Mac} (hr : Reachable cfg m) (k : Kind) (x : Xtal)
    (pa : Pa) (gain : Int) (hg : -29000 ≤ gain ∧ gain ≤ 32767) (c : Chip) (hc : c.kind = k)
    (hz : (c.defaults (tcxoReg k)).toNat.testBit 4 = false)
    (l l' : List Event) (ev : Event) (hl : m.out = l ++ ev :: l')
    (hev : ev = .receiveEntropy ∨ (∃ t s data, ev = .transmit t s data) ∨ ∃ t s, ev = .receive t s)
    (d1 : Driver) (c1 : Chip) (hp : Plays (Sx127x.init k x pa gain) c l d1 c1) :
    c1.clocked ∧ (c1.tcxo = true ↔ x = .tcxo) := by
  obtain ⟨p, h1, ⟨q, h2⟩, h3⟩ := reached_in hE hr k x pa gain hg c hc l l' ev hl d1 c1 hp
  have hon : c1.clocked := by
    have : p = .rx ∨ p = .tx := by
      rcases hev with rfl | ⟨t, s, data, rfl⟩ | ⟨t, s, rfl⟩ <;> (unfold Spec.accepts at h2; split at h2) <;> simp_all
    have hf := h1.fits
    rcases this with rfl | rfl <;> exact ⟨hf.2.1, hf.2.2⟩
  have hfine := reachable_fine hE hr
  obtain ⟨p2, g1, _⟩ := reachable_says hr
  rw [hl, follow_append] at g1
  obtain ⟨q2, g2, g3⟩ := Option.bind_eq_some_iff.1 g1
  have hreset : Event.setMode .reset ∈ l := by
    refine Classical.byContradiction fun hno => ?_
    have key : ∀ (l : List Event) (p : Phase), Event.setMode .reset ∉ l → follow .unknown l = some p → p = .unknown := by
      intro l
      induction l with
      | nil => intro p _ h; cases h; rfl
      | cons e l ih =>
        intro p hn h
        obtain ⟨q, a, b⟩ := Option.bind_eq_some_iff.1 h
        have hq : q = .unknown := by
          have hne : e ≠ .setMode .reset := fun h => hn (by rw [h]; exact List.mem_cons_self ..)
          cases e with
          | setMode mode => cases mode <;> first | exact absurd rfl hne | cases a
          | _ => first | (cases a; rfl) | cases a
        subst hq
        exact ih p (fun h => hn (List.mem_cons_of_mem _ h)) b
    have := key l q2 hno g2
    subst this
    obtain ⟨r, a, _⟩ := Option.bind_eq_some_iff.1 g3
    rcases hev with rfl | ⟨t, s, data, rfl⟩ | ⟨t, s, rfl⟩ <;> cases a
  have hk : c1.kind = k := by
    rw [h1.kind]
    exact ((Sx127x.plays_done (start_in k x pa gain hg c hc) hp g2
      fun y hy => hfine y (by rw [hl]; exact List.mem_append_left _ hy)).2).same.1
  refine ⟨hon, ?_⟩
  unfold Chip.tcxo
  rw [hk, c92_register hE hr k x pa gain hg c hc l (ev :: l') hl hreset d1 c1 hp hon]
  by_cases hx : x = .tcxo
  · rw [if_pos hx]
    exact ⟨fun _ => hx, fun _ => testBit_or16 _⟩
  · rw [if_neg hx, hz]
    exact ⟨fun h => (Bool.false_ne_true h).elim, fun h => absurd h hx⟩

/-- The demonstration of C65 after `n` events (0x09 is the register's reset value): mode and register, with a TCXO
and with a crystal. -/
def Demo.oscillator (k : Kind) (x : Xtal) (n : Nat) : Option (Bool × Nat × Nat × Bool) :=
  ((Demo.bothWindows.out.take n).foldl (fun o ev => o.bind fun y => perform y.1 y.2 ev)
      (some (Sx127x.init k x .boost 215, { Demo.chip with kind := k, defaults := fun _ => 0x09 }))).map
    fun y => (y.2.lora, y.2.mode, (y.2.reg (tcxoReg k)).toNat, y.2.tcxo)

example : Demo.bothWindows.out.length = 17 ∧
    (List.range 18).map (fun n => (Demo.oscillator .sx1276 .tcxo n).map fun y => (y.2.1, y.2.2.1)) =
      [(5, 255), (1, 9), (1, 9), (0, 9), (0, 9), (1, 25), (3, 25), (3, 25), (3, 25), (3, 25), (6, 25), (6, 25), (6, 25),
        (6, 25), (6, 25), (6, 25), (0, 25), (0, 25)].map some ∧
    (List.range 17).map (fun n => (Demo.oscillator .sx1272 .crystal (n + 1)).map fun y => (y.2.1, y.2.2.1)) =
      [(1, 9), (1, 9), (0, 9), (0, 9), (1, 9), (3, 9), (3, 9), (0, 9), (1, 9), (6, 9), (6, 9), (0, 9), (1, 9), (6, 9),
        (6, 9), (0, 9), (0, 9)].map some := by decide +kernel

end LDL
