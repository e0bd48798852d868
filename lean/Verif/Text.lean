import Verif.Basic
/-!
# Strings

A Rust `String` is represented by its UTF-8 bytes.
-/
namespace S2

/-- A Rust `String`: its UTF-8 bytes. [std `String`] -/
abbrev Str := List UInt8

/-- ASCII literal as a `Str` (for constants of the code and for examples). [std] -/
def str (s : String) : Str := s.toList.map (fun c => UInt8.ofNat c.toNat)

/-- Are the bytes well-formed UTF-8?  `ByteArray.validateUTF8` is Lean core's validator, proved
there to accept exactly the encodings of character sequences. [std] -/
def utf8Ok (bs : List UInt8) : Bool := (ByteArray.mk bs.toArray).validateUTF8

/-- `str::from_utf8(&bytes)?.to_string()` (std). [e.g. /repo/src/versions/protocol87702/events/tracker/mod.rs:87-108] -/
def fromUtf8 (bs : List UInt8) : Res Str := if utf8Ok bs then .ok bs else .err .utf8

/-- Decimal digits of a byte. [std] -/
def byteDec (b : UInt8) : Str :=
  let n := b.toNat
  let d (k : Nat) : UInt8 := UInt8.ofNat (48 + k % 10)
  if n < 10 then [d n] else if n < 100 then [d (n / 10), d n] else [d (n / 100), d (n / 10), d n]

/-- `format!("{:?}", bytes)` for a `Vec<u8>`: `[1, 2, 3]` (std). [/repo/src/versions/protocol87702/events/tracker/mod.rs:72-86] -/
def debugBytes (bs : List UInt8) : Str :=
  91 :: (((bs.map byteDec).intersperse [44, 32]).flatten ++ [93])

end S2
