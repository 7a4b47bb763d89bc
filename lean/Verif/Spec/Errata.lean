import Verif.Spec.Server

/-!
# Encryption of FOpts after the errata to LoRaWAN 1.1

The errata of 26 January 2018 (named in src/ldl_ops.c; its text is not in the repository) replaces the block of
section 4.3.1.6 by one that differs from those of FRMPayload and that tells the two downlink counters apart:
0x01 | 3 × 0x00 | X | Dir | DevAddr | FCnt | 0x00 | 0x01.
-/

namespace LDL.Spec

/-- The counter a frame is numbered by. -/
inductive FCntKind where
  | up | nwkDown | appDown
deriving DecidableEq, Repr

/-- The octet `X`: 1 for FCntUp and NFCntDown, 2 for AFCntDown. -/
def FCntKind.octet : FCntKind → UInt8
  | .up | .nwkDown => 1
  | .appDown => 2

/-- Direction of the frames a counter numbers. -/
def FCntKind.isUp : FCntKind → Bool
  | .up => true
  | _ => false

/-- The counter of a downlink: AFCntDown with a port other than 0, NFCntDown with port 0 or without a port. -/
def downKind (f : DataFrame) : FCntKind :=
  match f.payload with
  | some (0, _) => .nwkDown
  | some _ => .appDown
  | none => .nwkDown

/-- The block of the errata. -/
def errataBlock (kind : FCntKind) (devAddr fcnt : Nat) : List UInt8 :=
  [1, 0, 0, 0, kind.octet, dirOctet kind.isUp] ++ le 4 devAddr ++ le 4 fcnt ++ [0, 1]

/-- En- or decryption of FOpts, at most 15 octets: xor with the first octets of the encrypted block. -/
def errataOpts (E : List UInt8 → List UInt8 → List UInt8) (k : SessionKeys) (kind : FCntKind) (devAddr fcnt : Nat)
    (opts : List UInt8) : List UInt8 :=
  xorBytes opts (E k.nwkSEnc (errataBlock kind devAddr fcnt))

end LDL.Spec
