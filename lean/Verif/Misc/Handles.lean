import Verif.Misc.Hex
/-!
# Cache handles in the flat row of a player

`From<PlayerLobbyDetails> for PlayerLobbyDetailsFlatRow` (/repo/src/details.rs:76-138): the part that is not
plain copying, i.e. the loop over the cache handles.
-/
namespace S2

/-- Is byte index `i` a character boundary of the string (`str::is_char_boundary`, std)? [needed by /repo/src/details.rs:76-138] -/
def isBoundary (s : Str) (i : Nat) : Bool :=
  i == s.length || (match s[i]? with
    | some b => !(128 ≤ b && b < 192)
    | none => false)

/-- `s.split_at(i)` (std): panics off a boundary. [called in /repo/src/details.rs:76-138] -/
def splitAt (s : Str) (i : Nat) : Res (Str × Str) :=
  if isBoundary s i then .ok (s.take i, s.drop i) else .panic

/-- `char::to_digit(16)` (std) [called in /repo/src/details.rs:153-157] -/
def toDigit16 (c : UInt8) : Option Nat :=
  if 48 ≤ c ∧ c ≤ 57 then some (c.toNat - 48)
  else if 97 ≤ c ∧ c ≤ 102 then some (c.toNat - 87)
  else if 65 ≤ c ∧ c ≤ 70 then some (c.toNat - 55)
  else none

/-- `byte_chunk as char`, pushed on a `String`: code points from 128 on take two bytes (std). [/repo/src/details.rs:142-149] -/
def latin1 (n : Nat) : Str :=
  if n < 128 then [UInt8.ofNat n] else [UInt8.ofNat (192 + n / 64), UInt8.ofNat (128 + n % 64)]

/-- `parse_hex_chars_to_u8_char` (/repo/src/details.rs:153-157) on two characters;
`u8::from_str_radix` accepts a leading `+`. -/
def hexPair (a b : UInt8) : Res Str :=
  match (if a = 43 then some 0 else toDigit16 a), toDigit16 b with
  | some x, some y => .ok (latin1 (16 * x + y))
  | _, _ => .panic

/-- `make_string_from_hex_chars` (/repo/src/details.rs:142-149).  Simplified: taken two bytes at a time; a
character that is not ASCII makes `from_str_radix(..).unwrap()` panic whatever the chunking. -/
def hexChars : Str → Res Str
  | [] => .ok []
  | [a] => (match toDigit16 a with
    | some x => .ok (latin1 x)
    | none => .panic)
  | a :: b :: rest => do
    let c ← hexPair a b
    let cs ← hexChars rest
    pure (c ++ cs)

/-- One round of the loop (/repo/src/details.rs:82-103): extension, region, hash of a handle. -/
def handleParts (handle : Str) : Res (Str × Str × Str) := do
  let (extStr, remaining) ← splitAt handle 8
  let extension ← hexChars extStr
  let (_, remaining) ← splitAt remaining 4
  let (regionStr, hash) ← splitAt remaining 4
  let region ← hexChars regionStr
  pure (extension, region, hash)

/-- The three strings the loop accumulates. [/repo/src/details.rs:76-138] -/
structure HandleRow where
  region : Option Str
  extension : Option Str
  handles : Str
  deriving DecidableEq, Repr

/-- The loop (/repo/src/details.rs:82-103) -/
def handleLoop : List Str → HandleRow → Res HandleRow
  | [], acc => .ok acc
  | h :: hs, acc => do
    let (ext, region, hash) ← handleParts h
    handleLoop hs
      { extension := (match acc.extension with | none => some ext | some e => some e)
        region := (match acc.region with | none => some region | some e => some e)
        handles := acc.handles ++ hash ++ [44] }

/-- The loop and the removal of the last character (`String::pop`, /repo/src/details.rs:78-104).
Simplified: the last character is always the `,` pushed by the loop, a single byte. -/
def handleRow (handles : List Str) : Res HandleRow := do
  let r ← handleLoop handles ⟨none, none, []⟩
  pure { r with handles := r.handles.dropLast }

end S2
