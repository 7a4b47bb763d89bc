import Verif.Model.Basic

/-!
# Model of src/ldl_ctr.c

`E` stands for `LDL_AES_encrypt(ctx, .)`, an arbitrary function from blocks to blocks.
-/

namespace LDL

/-- `xor128` (src/ldl_ctr.c:82-100, src/ldl_cmac.c:207-225): sixteen bytewise xors. -/
def xor128 (acc op : Bytes) : Bytes := List.zipWith (· ^^^ ·) acc op

/-- `memcpy(&dst[off], src, ..)`: the bytes of `src` replace those of `dst` from `off` on. -/
def memcpyAt (dst : Bytes) (off : Nat) (src : Bytes) : Bytes :=
  dst.take off ++ src ++ dst.drop (off + src.length)

namespace Ctr

/-- The loop of `LDL_CTR_encrypt` (src/ldl_ctr.c:59-79), `n` iterations left.  The library only calls
it in place (`in == out`, src/ldl_sm.c:144), which is what is modelled: `buf` is both. -/
def loop (E : Bytes → Bytes) (len : Nat) : Nat → Nat → Bytes → Bytes → Bytes
  | 0, _, _, buf => buf
  | n + 1, pos, a, buf =>
    let size := if len - pos ≥ 16 then 16 else len - pos
    let pld := memcpyAt (List.replicate 16 0) 0 ((buf.drop pos).take size)
    let s := E a
    let a := a.set 15 (a.getD 15 0 + 1)
    let pld := xor128 pld s
    loop E len n (u8 (pos + 16)) a (memcpyAt buf pos (pld.take size))

/-- `LDL_CTR_encrypt` (src/ldl_ctr.c:35-80) on `buf`, whose length is the argument `len`. -/
def encrypt (E : Bytes → Bytes) (iv buf : Bytes) : Bytes :=
  let len := buf.length
  let k := len / 16 + (if len % 16 ≠ 0 then 1 else 0)
  loop E len k 0 iv buf

end Ctr
end LDL
