/-!
# Machine integers

C integers are modelled as `Nat` with explicit reduction where the C type can wrap.
-/

namespace LDL

/-- A byte string held in a C buffer. -/
abbrev Bytes := List UInt8

/-- `U8(x)`: cast to `uint8_t` (include/ldl_internal.h:38). -/
def u8 (n : Nat) : Nat := n % 256

/-- `U16(x)`: cast to `uint16_t` (include/ldl_internal.h:36). -/
def u16 (n : Nat) : Nat := n % 65536

/-- `U32(x)`: cast to `uint32_t` (include/ldl_internal.h:35). -/
def u32 (n : Nat) : Nat := n % 4294967296

/-- `uint32_t` subtraction `a - b`, wrapping. -/
def sub32 (a b : Nat) : Nat := (a + (4294967296 - b % 4294967296)) % 4294967296

/-- `UINT32_MAX`. -/
def UINT32_MAX : Nat := 4294967295

/-- `INT32_MAX`. -/
def INT32_MAX : Nat := 2147483647

/-- `UINT8_MAX`. -/
def UINT8_MAX : Nat := 255

end LDL
