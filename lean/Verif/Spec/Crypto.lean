/-!
# Counter mode and CMAC, written from LoRaWAN section 4.3.3 and RFC 4493

`E` is a block cipher under a fixed key.
-/

namespace LDL.Spec

/-- Bytewise exclusive or of two strings (the shorter length). -/
def xorBytes (a b : List UInt8) : List UInt8 := List.zipWith (· ^^^ ·) a b

/-- The counter block with index `i` in its last byte. -/
def counterBlock (hdr : List UInt8) (i : Nat) : List UInt8 := hdr ++ [UInt8.ofNat i]

/-- `S = S_1 | S_2 | .. | S_k` with `S_j = E (A_j)` (LoRaWAN 4.3.3.1), first index `i`. -/
def keystream (E : List UInt8 → List UInt8) (hdr : List UInt8) (i k : Nat) : List UInt8 :=
  (List.range k).flatMap fun j => E (counterBlock hdr (i + j))

/-- `(pld | pad16) xor S`, truncated to `len (pld)` (LoRaWAN 4.3.3.1).  The first index is `i`. -/
def payloadCrypt (E : List UInt8 → List UInt8) (hdr : List UInt8) (i : Nat) (pld : List UInt8) :
    List UInt8 :=
  xorBytes pld (keystream E hdr i ((pld.length + 15) / 16))

/-- Doubling in GF(2^128) on big-endian bit strings (RFC 4493 section 2.3): the 16 byte string as a
128 bit number, shifted left by one; if the top bit was set, xor with `0x87`. -/
def beValue (bs : List UInt8) : Nat := bs.foldl (fun acc b => 256 * acc + b.toNat) 0

/-- Big-endian encoding on `n` bytes. -/
def be : Nat → Nat → List UInt8
  | 0, _ => []
  | n + 1, v => be n (v / 256) ++ [UInt8.ofNat v]

/-- Doubling (RFC 4493 section 2.3). -/
def double (k : List UInt8) : List UInt8 :=
  let v := beValue k
  if v < 2 ^ 127 then be 16 (2 * v) else be 16 ((2 * v) % 2 ^ 128 ^^^ 0x87)

/-- Cipher block chaining over whole blocks, starting from `x`. -/
def cbc (E : List UInt8 → List UInt8) (x : List UInt8) : List (List UInt8) → List UInt8
  | [] => x
  | m :: ms => cbc E (E (xorBytes x m)) ms

/-- Consecutive blocks of 16 bytes of the first `16 n` bytes. -/
def blocks (n : Nat) (msg : List UInt8) : List (List UInt8) :=
  (List.range n).map fun i => (msg.drop (16 * i)).take 16

/-- AES-CMAC (RFC 4493 section 2.4). -/
def cmac (E : List UInt8 → List UInt8) (msg : List UInt8) : List UInt8 :=
  let k1 := double (E (List.replicate 16 0))
  let k2 := double k1
  let n := if msg.length = 0 then 1 else (msg.length + 15) / 16
  let last := msg.drop (16 * (n - 1))
  let mLast :=
    if last.length = 16 then xorBytes last k1
    else xorBytes (last ++ [0x80] ++ List.replicate (15 - last.length) 0) k2
  E (xorBytes (cbc E (List.replicate 16 0) (blocks (n - 1) msg)) mLast)

end LDL.Spec
