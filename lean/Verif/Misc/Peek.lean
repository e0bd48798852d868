import Verif.Bits
import Verif.Text
/-!
# The picture of a bit cursor that the log lines show (/repo/src/lib.rs:92-130)

`peek_hex` belongs to the crate `nom_mpq`, which is not part of /repo: its text is a parameter.

`String::blue`, `green` and `yellow` are those of the crate `colored` (3.0): they return a `ColoredString`, and
`res.push_str(&…)` takes it through `Deref<Target = str>`, which gives the text without the colour codes.  So the colours the
comment of the function announces do not show in the result, only the marks do.
-/
namespace S2

/-- `format!("{:08b}", byte)` (std): eight binary digits, the most significant first. [used at /repo/src/lib.rs:100] -/
def binaryDigits (b : UInt8) : List UInt8 :=
  [b.toNat / 128 % 2, b.toNat / 64 % 2, b.toNat / 32 % 2, b.toNat / 16 % 2, b.toNat / 8 % 2, b.toNat / 4 % 2, b.toNat / 2 % 2,
    b.toNat % 2].map (fun d => UInt8.ofNat (48 + d))

/-- The loop over the digits, from index `idx`: the digit at the bit offset is written `>d<`, the others plainly
(/repo/src/lib.rs:102-108). -/
def peekDigits (off : Nat) : Nat → List UInt8 → Str
  | _, [] => []
  | idx, d :: ds => (if idx = off then [62, d, 60] else [d]) ++ peekDigits off (idx + 1) ds

/-- `peek_bits` (/repo/src/lib.rs:96-112). -/
def peekBits (peekHex : List UInt8 → Str) (c : Cur) : Str :=
  match c.bytes with
  | [] => str "[]"
  | b :: _ => str "[0b" ++ peekDigits c.off 0 (binaryDigits b) ++ str "]" ++ peekHex c.bytes

/-- `dbg_peek_bits` (/repo/src/lib.rs:116-130): the parser `f`, with one log line when it fails.  The error shown is not modelled
beyond the picture of the cursor. -/
def dbgPeekBits {α : Type} (peekHex : List UInt8 → Str) (f : Cur → Res (Cur × α)) (context : Str) (c : Cur) :
    Res (Cur × α) × List (Str × Str) :=
  match f c with
  | .err e => (.err e, [(context, peekBits peekHex c)])
  | a => (a, [])

end S2
