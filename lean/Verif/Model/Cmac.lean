import Verif.Model.Ctr

/-!
# Model of src/ldl_cmac.c

`E` stands for `LDL_AES_encrypt(ctx->aes_ctx, .)`.
-/

namespace LDL.Cmac

/-- `struct ldl_cmac_ctx` (include/ldl_cmac.h), without the cipher.  `size` is a `uint8_t`. -/
structure Ctx where
  m : Bytes
  x : Bytes
  size : Nat
deriving Repr, DecidableEq

/-- `LDL_CMAC_init` (src/ldl_cmac.c:59-66). -/
def init : Ctx := { m := List.replicate 16 0, x := List.replicate 16 0, size := 0 }

/-- The loop over new blocks in `LDL_CMAC_update` (src/ldl_cmac.c:103-112); `n` iterations left.
Returns `m`, `x`, `part` and `pos`. -/
def blocksLoop (E : Bytes → Bytes) (data : Bytes) :
    Nat → Bytes → Bytes → Nat → Nat → Bytes × Bytes × Nat × Nat
  | 0, m, x, part, pos => (m, x, part, pos)
  | n + 1, m, x, part, pos =>
    let m := memcpyAt m part ((data.drop pos).take (16 - part))
    let pos := u8 (pos + (16 - part))
    let x := E (xor128 x m)
    blocksLoop E data n m x 0 pos

/-- `LDL_CMAC_update` (src/ldl_cmac.c:68-120); `data.length` is the argument `len`. -/
def update (E : Bytes → Bytes) (c : Ctx) (data : Bytes) : Ctx :=
  let len := data.length
  let part := c.size % 16
  if len > 0 then
    let (m, x, part, pos) :=
      if (part = 0 ∧ c.size > 0) ∨ part + len > 16 then
        let x := if part = 0 ∧ c.size > 0 then E (xor128 c.x c.m) else c.x
        let blocks := u8 ((part + len) / 16)
        let blocks := if (part + len) % 16 = 0 then blocks - 1 else blocks
        blocksLoop E data blocks c.m x part 0
      else (c.m, c.x, part, 0)
    let tmp := len - pos
    { m := memcpyAt m part ((data.drop pos).take tmp), x := x, size := u8 (c.size + len) }
  else c

/-- One iteration of the loop in `leftShift128` (src/ldl_cmac.c:194-204) for `i - 1 = n`. -/
def shiftByte (st : Bytes × UInt8) (n : Nat) : Bytes × UInt8 :=
  let t := st.1.getD n 0
  let tt := (t <<< 1) ||| st.2
  let carry := if t &&& 0x80 = 0x80 then 1 else 0
  (st.1.set n tt, carry)

/-- `leftShift128` (src/ldl_cmac.c:185-205). -/
def leftShift128 (v : Bytes) : Bytes :=
  ([15, 14, 13, 12, 11, 10, 9, 8, 7, 6, 5, 4, 3, 2, 1, 0].foldl shiftByte (v, 0)).1

/-- Subkey step (src/ldl_cmac.c:141-147 and 149-155): shift, then `^ 0x87` in the last byte if the top
bit was set. -/
def subkey (k : Bytes) : Bytes :=
  let k1 := leftShift128 k
  if k.getD 0 0 &&& 0x80 = 0x80 then k1.set 15 (k1.getD 15 0 ^^^ 0x87) else k1

/-- `LDL_CMAC_finish` (src/ldl_cmac.c:122-181); all sixteen bytes (`outMax` only truncates). -/
def finish (E : Bytes → Bytes) (c : Ctx) : Bytes :=
  let k := E (List.replicate 16 0)
  let k1 := subkey k
  let k2 := subkey k1
  let part := c.size % 16
  let m_last :=
    if c.size = 0 ∨ part > 0 then
      let m := memcpyAt (List.replicate 16 0) 0 (c.m.take part)
      xor128 (m.set part 0x80) k2
    else
      xor128 (c.m.take 16) k1
  E (xor128 m_last c.x)

end LDL.Cmac
