/-!
# AES-128 written from FIPS-197

Bytes are elements of GF(2^8) = GF(2)[x]/(x^8+x^4+x^3+x+1); the state is a 4x4 matrix.
-/

namespace LDL.Spec.Aes

/-- Multiplication by `x` (FIPS-197 section 4.2.1). -/
def xtime (b : UInt8) : UInt8 := if b.toNat < 128 then 2 * b else (2 * b) ^^^ 0x1b

/-- Product of `a` with the polynomial made of the lowest `n` bits of `b` (section 4.2): the sum of
`a x^i` over the set bits `i` of `b`. -/
def gmulBits (a b : UInt8) : Nat → UInt8
  | 0 => 0
  | n + 1 => gmulBits a b n ^^^ (if b.toNat.testBit n then Nat.repeat xtime n a else 0)

/-- Multiplication in GF(2^8) (section 4.2). -/
def gmul (a b : UInt8) : UInt8 := gmulBits a b 8

/-- `a ^ 254`, the multiplicative inverse of `a` (with `0` mapped to itself). -/
def inv (a : UInt8) : UInt8 :=
  let a2 := gmul a a
  let a4 := gmul a2 a2
  let a8 := gmul a4 a4
  let a16 := gmul a8 a8
  let a32 := gmul a16 a16
  let a64 := gmul a32 a32
  let a128 := gmul a64 a64
  gmul a128 (gmul a64 (gmul a32 (gmul a16 (gmul a8 (gmul a4 a2)))))

/-- The bit `i` of the S-box output (section 5.1.1, equation 5.1). -/
def affineBit (b : Nat) (i : Nat) : Bool :=
  (b.testBit i).xor <| (b.testBit ((i + 4) % 8)).xor <| (b.testBit ((i + 5) % 8)).xor <|
  (b.testBit ((i + 6) % 8)).xor <| (b.testBit ((i + 7) % 8)).xor <| Nat.testBit 0x63 i

/-- The S-box (section 5.1.1). -/
def sbox (a : UInt8) : UInt8 :=
  let b := (inv a).toNat
  UInt8.ofNat ((List.range 8).foldl (fun acc i => acc + (affineBit b i).toNat * 2 ^ i) 0)

/-- The state: row, column (section 3.4). -/
abbrev State := Fin 4 → Fin 4 → UInt8

/-- Input and output mapping `s[r,c] = in[r + 4c]` (section 3.4). -/
def toState (bs : List UInt8) : State := fun r c => bs.getD (r.val + 4 * c.val) 0

/-- `out[r + 4c] = s[r,c]` (section 3.4). -/
def ofState (s : State) : List UInt8 :=
  [s 0 0, s 1 0, s 2 0, s 3 0, s 0 1, s 1 1, s 2 1, s 3 1,
   s 0 2, s 1 2, s 2 2, s 3 2, s 0 3, s 1 3, s 2 3, s 3 3]

/-- Section 5.1.1. -/
def subBytes (s : State) : State := fun r c => sbox (s r c)

/-- Section 5.1.2: row `r` is rotated left by `r`. -/
def shiftRows (s : State) : State := fun r c => s r (c + r)

/-- Section 5.1.3. -/
def mixColumns (s : State) : State := fun r c =>
  gmul 2 (s r c) ^^^ gmul 3 (s (r + 1) c) ^^^ s (r + 2) c ^^^ s (r + 3) c

/-- A word of four bytes. -/
abbrev Word := Fin 4 → UInt8

/-- Exclusive or of words. -/
def xorWord (a b : Word) : Word := fun i => a i ^^^ b i

/-- Section 5.2. -/
def rotWord (w : Word) : Word := fun i => w (i + 1)

/-- Section 5.2. -/
def subWord (w : Word) : Word := fun i => sbox (w i)

/-- `Rcon[i]` (section 5.2): `[x^(i-1), 0, 0, 0]`. -/
def rconWord (i : Nat) : Word := fun j => if j = 0 then Nat.repeat xtime (i - 1) 1 else 0

/-- The key schedule word `w[i]` (section 5.2, figure 11, Nk = 4). -/
def w (key : List UInt8) (i : Nat) : Word :=
  if h : i < 4 then fun j => key.getD (4 * i + j.val) 0
  else
    let temp := w key (i - 1)
    let temp := if i % 4 = 0 then xorWord (subWord (rotWord temp)) (rconWord (i / 4)) else temp
    xorWord (w key (i - 4)) temp
termination_by i

/-- Section 5.1.4, round key `round`. -/
def addRoundKey (key : List UInt8) (round : Nat) (s : State) : State :=
  fun r c => s r c ^^^ w key (4 * round + c.val) r

/-- Rounds `1 .. n` of the cipher (section 5.1, figure 5), without the final one. -/
def mainRounds (key : List UInt8) : Nat → State → State
  | 0, s => s
  | n + 1, s => addRoundKey key (n + 1) (mixColumns (shiftRows (subBytes (mainRounds key n s))))

/-- The cipher (section 5.1, figure 5), Nr = 10. -/
def cipher (key input : List UInt8) : List UInt8 :=
  let s := addRoundKey key 0 (toState input)
  let s := mainRounds key 9 s
  ofState (addRoundKey key 10 (shiftRows (subBytes s)))

end LDL.Spec.Aes
