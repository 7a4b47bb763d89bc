import Verif.Model.State
import Verif.Spec.Regional

/-!
# Channels of a session, described without the code

A session holds a word per channel (only used in regions where channels can be defined: frequency in units of
100 Hz in the upper 24 bits, lowest and highest data rate in a nibble each) and nine bytes of mask, a set bit
meaning that the channel may not be used.
-/

namespace LDL
namespace Spec

/-- Frequency, lowest and highest data rate of a channel, if it is defined. -/
def chan (s : Session) (ch : Nat) : Option (Nat × Nat × Nat) :=
  match s.region with
  | .eu868 | .eu433 =>
    if ch < 16 ∧ 256 ≤ s.chConfig ch then
      some (s.chConfig ch / 256 * 100, s.chConfig ch / 16 % 16, s.chConfig ch % 16)
    else none
  | .us915 => if ch < 64 then some (fixedFreq .us915 ch, 0, 3) else if ch < 72 then some (fixedFreq .us915 ch, 4, 4) else none
  | .au915 => if ch < 64 then some (fixedFreq .au915 ch, 0, 5) else if ch < 72 then some (fixedFreq .au915 ch, 6, 6) else none

/-- A channel is masked: the network or the user disabled it. -/
def Masked (s : Session) (ch : Nat) : Prop := (s.chMask (ch / 8)).testBit (ch % 8) = true

instance (s : Session) (ch : Nat) : Decidable (Masked s ch) := inferInstanceAs (Decidable (_ = true))

/-- The number of the duty cycle band of a frequency. -/
def band : Region → Nat → Option Nat
  | .eu868, f =>
    if 863000000 ≤ f ∧ f ≤ 868000000 then some 0
    else if 868000000 < f ∧ f ≤ 868600000 then some 1
    else if 868700000 ≤ f ∧ f ≤ 869200000 then some 2
    else if 869400000 ≤ f ∧ f ≤ 869650000 then some 3
    else if 869700000 ≤ f ∧ f < 870000000 then some 4
    else none
  | _, _ => some 0

/-- A channel can be used at once, when off-times up to `limit` are tolerated: it is defined, not masked, and its
band has no more than that off-time left. -/
def Open (m : Mac) (limit ch : Nat) : Prop :=
  ¬ Masked m.ctx ch ∧ ∃ f lo hi b, chan m.ctx ch = some (f, lo, hi) ∧ band m.ctx.region f = some b ∧ m.band b ≤ limit

end Spec
end LDL
