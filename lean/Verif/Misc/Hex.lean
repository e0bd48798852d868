import Verif.Text
/-! # Hexadecimal text of byte strings -/
namespace S2

/-- The `i`-th digit of `{:x}` (std): `0`-`9`, `a`-`f`. [used at /repo/src/versions/protocol87702/events/details.rs:36-38] -/
def hexDigit (i : Nat) : UInt8 := if i < 10 then UInt8.ofNat (48 + i) else UInt8.ofNat (87 + i)

/-- `format!("{cache_byte:02x}")` (std, as used at /repo/src/versions/protocol87702/events/details.rs:36-38). -/
def hexByte (b : UInt8) : Str := [hexDigit (b.toNat / 16), hexDigit (b.toNat % 16)]

/-- The text of a cache handle (/repo/src/versions/protocol87702/events/details.rs:35-39;
/repo/src/versions/protocol87702/events/init_data.rs:162-171): the digits of the bytes, one after the other. -/
def hexText : List UInt8 → Str
  | [] => []
  | b :: bs => hexByte b ++ hexText bs

end S2
