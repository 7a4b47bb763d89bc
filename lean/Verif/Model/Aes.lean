import Verif.Model.Basic

/-!
# Model of src/ldl_aes.c

Arrays are lists; `a[i]` is `a.getD i 0` (all indices are in range for a 16 byte key and block).
The AVR variant of the tables is not modelled.
-/

namespace LDL.Aes

/-- `sbox` (src/ldl_aes.c:64-97). -/
def sboxTable : List UInt8 :=
  [0x63, 0x7c, 0x77, 0x7b, 0xf2, 0x6b, 0x6f, 0xc5, 0x30, 0x01, 0x67, 0x2b, 0xfe, 0xd7, 0xab, 0x76,
   0xca, 0x82, 0xc9, 0x7d, 0xfa, 0x59, 0x47, 0xf0, 0xad, 0xd4, 0xa2, 0xaf, 0x9c, 0xa4, 0x72, 0xc0,
   0xb7, 0xfd, 0x93, 0x26, 0x36, 0x3f, 0xf7, 0xcc, 0x34, 0xa5, 0xe5, 0xf1, 0x71, 0xd8, 0x31, 0x15,
   0x04, 0xc7, 0x23, 0xc3, 0x18, 0x96, 0x05, 0x9a, 0x07, 0x12, 0x80, 0xe2, 0xeb, 0x27, 0xb2, 0x75,
   0x09, 0x83, 0x2c, 0x1a, 0x1b, 0x6e, 0x5a, 0xa0, 0x52, 0x3b, 0xd6, 0xb3, 0x29, 0xe3, 0x2f, 0x84,
   0x53, 0xd1, 0x00, 0xed, 0x20, 0xfc, 0xb1, 0x5b, 0x6a, 0xcb, 0xbe, 0x39, 0x4a, 0x4c, 0x58, 0xcf,
   0xd0, 0xef, 0xaa, 0xfb, 0x43, 0x4d, 0x33, 0x85, 0x45, 0xf9, 0x02, 0x7f, 0x50, 0x3c, 0x9f, 0xa8,
   0x51, 0xa3, 0x40, 0x8f, 0x92, 0x9d, 0x38, 0xf5, 0xbc, 0xb6, 0xda, 0x21, 0x10, 0xff, 0xf3, 0xd2,
   0xcd, 0x0c, 0x13, 0xec, 0x5f, 0x97, 0x44, 0x17, 0xc4, 0xa7, 0x7e, 0x3d, 0x64, 0x5d, 0x19, 0x73,
   0x60, 0x81, 0x4f, 0xdc, 0x22, 0x2a, 0x90, 0x88, 0x46, 0xee, 0xb8, 0x14, 0xde, 0x5e, 0x0b, 0xdb,
   0xe0, 0x32, 0x3a, 0x0a, 0x49, 0x06, 0x24, 0x5c, 0xc2, 0xd3, 0xac, 0x62, 0x91, 0x95, 0xe4, 0x79,
   0xe7, 0xc8, 0x37, 0x6d, 0x8d, 0xd5, 0x4e, 0xa9, 0x6c, 0x56, 0xf4, 0xea, 0x65, 0x7a, 0xae, 0x08,
   0xba, 0x78, 0x25, 0x2e, 0x1c, 0xa6, 0xb4, 0xc6, 0xe8, 0xdd, 0x74, 0x1f, 0x4b, 0xbd, 0x8b, 0x8a,
   0x70, 0x3e, 0xb5, 0x66, 0x48, 0x03, 0xf6, 0x0e, 0x61, 0x35, 0x57, 0xb9, 0x86, 0xc1, 0x1d, 0x9e,
   0xe1, 0xf8, 0x98, 0x11, 0x69, 0xd9, 0x8e, 0x94, 0x9b, 0x1e, 0x87, 0xe9, 0xce, 0x55, 0x28, 0xdf,
   0x8c, 0xa1, 0x89, 0x0d, 0xbf, 0xe6, 0x42, 0x68, 0x41, 0x99, 0x2d, 0x0f, 0xb0, 0x54, 0xbb, 0x16]

/-- `SBOX` (src/ldl_aes.c:56). -/
def SBOX (c : UInt8) : UInt8 := sboxTable.getD c.toNat 0

/-- `rcon` (src/ldl_aes.c:111-113). -/
def rcon : List UInt8 := [0x8d, 0x01, 0x02, 0x04, 0x08, 0x10, 0x20, 0x40, 0x80, 0x1b, 0x36]

/-- `GALOIS_MUL2` (src/ldl_aes.c:42). -/
def GALOIS_MUL2 (b : UInt8) : UInt8 := if b &&& 0x80 = 0x80 then (b <<< 1) ^^^ 0x1b else b <<< 1

/-- Body of the inner loop of the key schedule (src/ldl_aes.c:136-140): appends `k[p] = k[p-4] ^ k[p-16]`.
`p` is the number of key bytes so far, so the write is an append. -/
def scheduleByte (k : Bytes) : Bytes :=
  k ++ [k.getD (k.length - 4) 0 ^^^ k.getD (k.length - 16) 0]

/-- Body of the outer loop of the key schedule (src/ldl_aes.c:126-143). -/
def scheduleRound (k : Bytes) (i : Nat) : Bytes :=
  let p := k.length
  let swap := k.getD (p - 4) 0
  let k := k ++ [SBOX (k.getD (p - 3) 0) ^^^ k.getD (p - 16) 0 ^^^ rcon.getD i 0]
  let k := k ++ [SBOX (k.getD (p - 2) 0) ^^^ k.getD (p + 1 - 16) 0]
  let k := k ++ [SBOX (k.getD (p - 1) 0) ^^^ k.getD (p + 2 - 16) 0]
  let k := k ++ [SBOX swap ^^^ k.getD (p + 3 - 16) 0]
  (List.range 12).foldl (fun k _ => scheduleByte k) k

/-- `LDL_AES_init` (src/ldl_aes.c:101-144): the 176 bytes of round keys.  `while(p < 176)` runs with
`i = 1 .. 10`. -/
def init (key : Bytes) : Bytes :=
  (List.range 10).foldl (fun k i => scheduleRound k (i + 1)) key

/-- Add round key, S-box and row shift, one statement per line (src/ldl_aes.c:160-187). -/
def subShift (k : Bytes) (p : Nat) (s : Bytes) : Bytes :=
  let K := fun i => k.getD (p + i) 0
  -- row 1
  let s := s.set 0 (SBOX (s.getD 0 0 ^^^ K 0))
  let s := s.set 4 (SBOX (s.getD 4 0 ^^^ K 4))
  let s := s.set 8 (SBOX (s.getD 8 0 ^^^ K 8))
  let s := s.set 12 (SBOX (s.getD 12 0 ^^^ K 12))
  -- row 2, left shift 1
  let a := SBOX (s.getD 1 0 ^^^ K 1)
  let s := s.set 1 (SBOX (s.getD 5 0 ^^^ K 5))
  let s := s.set 5 (SBOX (s.getD 9 0 ^^^ K 9))
  let s := s.set 9 (SBOX (s.getD 13 0 ^^^ K 13))
  let s := s.set 13 a
  -- row 3, left shift 2
  let a := SBOX (s.getD 2 0 ^^^ K 2)
  let b := SBOX (s.getD 6 0 ^^^ K 6)
  let s := s.set 2 (SBOX (s.getD 10 0 ^^^ K 10))
  let s := s.set 6 (SBOX (s.getD 14 0 ^^^ K 14))
  let s := s.set 10 a
  let s := s.set 14 b
  -- row 4, left shift 3
  let a := SBOX (s.getD 15 0 ^^^ K 15)
  let s := s.set 15 (SBOX (s.getD 11 0 ^^^ K 11))
  let s := s.set 11 (SBOX (s.getD 7 0 ^^^ K 7))
  let s := s.set 7 (SBOX (s.getD 3 0 ^^^ K 3))
  s.set 3 a

/-- One column of MixColumns (src/ldl_aes.c:204-219). -/
def mixColumn (s : Bytes) (i : Nat) : Bytes :=
  let a := s.getD i 0
  let b := s.getD (i + 1) 0
  let c := s.getD (i + 2) 0
  let d := s.getD (i + 3) 0
  let s := s.set i (s.getD i 0 ^^^ ((a ^^^ b ^^^ c ^^^ d) ^^^ GALOIS_MUL2 (a ^^^ b)))
  let s := s.set (i + 1) (s.getD (i + 1) 0 ^^^ ((a ^^^ b ^^^ c ^^^ d) ^^^ GALOIS_MUL2 (b ^^^ c)))
  let s := s.set (i + 2) (s.getD (i + 2) 0 ^^^ ((a ^^^ b ^^^ c ^^^ d) ^^^ GALOIS_MUL2 (c ^^^ d)))
  s.set (i + 3) (s.getD (i + 3) 0 ^^^ ((a ^^^ b ^^^ c ^^^ d) ^^^ GALOIS_MUL2 (d ^^^ a)))

/-- Mix columns loop (src/ldl_aes.c:202-220). -/
def mixColumns (s : Bytes) : Bytes := [0, 4, 8, 12].foldl mixColumn s

/-- Final add round key loop (src/ldl_aes.c:193-197). -/
def addKey (k : Bytes) (p : Nat) (s : Bytes) : Bytes :=
  (List.range 16).foldl (fun s i => s.set i (s.getD i 0 ^^^ k.getD (p + i) 0)) s

/-- The rounds of `LDL_AES_encrypt` (src/ldl_aes.c:158-224) for `r = 10 - n .. 9`; `p = 16 * r`. -/
def rounds (k : Bytes) : Nat → Bytes → Bytes
  | 0, s => s
  | n + 1, s =>
    let r := 10 - (n + 1)
    let p := 16 * r
    let s := subShift k p s
    if r + 1 = 10 then addKey k (p + 16) s
    else rounds k n (mixColumns s)

/-- `LDL_AES_encrypt` (src/ldl_aes.c:146-226) with the context made by `LDL_AES_init` from `key`. -/
def encrypt (key s : Bytes) : Bytes := rounds (init key) 10 s

end LDL.Aes
