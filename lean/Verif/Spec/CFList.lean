import Verif.Spec.Channel
import Verif.Spec.Commands
import Verif.Spec.Wire

/-!
# The channel list of a join accept (RP001 1.0.3, "JoinAccept CFList" of each region)

Sixteen octets; the last is the type.  Type 0 lists five frequencies of three octets, in units of 100 Hz, for the
channels 3 to 7 of regions whose channels can be defined.  Type 1 holds a channel mask for regions with a fixed plan: bit
`ch` of the list, counted from the least significant bit of the first octet, enables channel `ch`.
-/

namespace LDL
namespace Spec

/-- The frequency listed for channel `3 + k`. -/
def listedFreq (l : List UInt8) (k : Nat) : Nat := 100 * leValue ((l.drop (3 * k)).take 3)

/-- Whether the list enables a channel. -/
def listedEnabled (l : List UInt8) (ch : Nat) : Bool := (l.getD (ch / 8) 0).toNat.testBit (ch % 8)

/-- What a channel is after the list, given what it was.  A listed frequency of zero leaves the channel undefined; one
that is not allowed in the region is ignored. -/
def listedChan (r : Region) (l : List UInt8) (old : Nat → Option (Nat × Nat × Nat)) (ch : Nat) : Option (Nat × Nat × Nat) :=
  if definable r = true ∧ l.getD 15 0 = 0 ∧ 3 ≤ ch ∧ ch < 8 then
    if listedFreq l (ch - 3) = 0 then none
    else if channelFreq r (listedFreq l (ch - 3)) = true then some (listedFreq l (ch - 3), 0, 5)
    else old ch
  else old ch

/-- Whether a channel is disabled after the list, given whether it was. -/
def listedMask (r : Region) (l : List UInt8) (old : Nat → Prop) (ch : Nat) : Prop :=
  if definable r = false ∧ l.getD 15 0 = 1 ∧ ch < 72 then listedEnabled l ch = false else old ch

/-- The RX1 delay in seconds of an RXDelay octet (LoRaWAN 1.0.4 section 6.2.6): the upper four bits are reserved, zero
means one second. -/
def rxDelaySeconds (octet : Nat) : Nat := if octet % 16 = 0 then 1 else octet % 16

end Spec
end LDL
