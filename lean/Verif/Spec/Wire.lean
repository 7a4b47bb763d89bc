/-!
# Wire conventions (LoRaWAN 1.0.4 section 3): multi-octet fields are little-endian
-/

namespace LDL.Spec

/-- The number denoted by a little-endian byte string. -/
def leValue : List UInt8 → Nat
  | [] => 0
  | b :: bs => b.toNat + 256 * leValue bs

/-- The `n`-byte little-endian encoding of `v` (modulo `256 ^ n`). -/
def le : Nat → Nat → List UInt8
  | 0, _ => []
  | n + 1, v => UInt8.ofNat v :: le n (v / 256)

end LDL.Spec
