import Verif.Basic
import Verif.Text
/-!
# A run of the generator on files (/repo/src/generator/proto_morphist.rs:29-56, 367-378)

The file system is a function from paths to contents.  Parameters: which paths can be created, how `OsStr` is printed by `{:?}` (std),
and what is written for the bytes of a description: the pieces in order, and whether a panic ends them.  Errors of single writes are not modelled.
-/
namespace S2.Generator
open S2

/-- Contents of files, by path. [std] -/
abbrev Disk := Str → Option (List UInt8)

/-- The digits of a text. [char::is_ascii_digit, /repo/src/generator/proto_morphist.rs:37] -/
def isDigit (c : UInt8) : Bool := 48 ≤ c && c ≤ 57

/-- `str::parse::<u64>` (std) on a text that has only digits: an error if there are none or the number is too large.
[used at /repo/src/generator/proto_morphist.rs:38] -/
def parseU64 (ds : List UInt8) : Option Nat :=
  if ds = [] then none
  else
    let n := ds.foldl (fun a d => 10 * a + (d.toNat - 48)) 0
    if n < 2 ^ 64 then some n else none

/-- The protocol number: the digits of the printed file name, all of them, as one number; `none` is the panic of `unwrap`
(/repo/src/generator/proto_morphist.rs:34-38). -/
def protoNumber (debugName : Str) : Option Nat := parseU64 (debugName.filter isDigit)

/-- What the rest of the generator does with the bytes of a description and the number: `none` if they are no JSON (`unwrap`
panics), else the pieces written, and whether it came to its end (/repo/src/generator/proto_morphist.rs:39-54, 367-378). -/
abbrev Writer := Nat → List UInt8 → Option (List (List UInt8) × Bool)

/-- How a run ends. [/repo/src/generator/proto_morphist.rs:367-378] -/
inductive GenEnd
  | done
  | ioError
  | panicked
  deriving DecidableEq, Repr

/-- `ProtoMorphist::gen`: the number, then the output is created (and thereby emptied), then the source is opened and read, then the
pieces are written (/repo/src/generator/proto_morphist.rs:29-56, 367-378). `debugName` is `none` if the path has no file name. -/
def genRun (canCreate : Str → Bool) (debugName : Str → Option Str) (w : Writer) (src out : Str) (d : Disk) : GenEnd × Disk :=
  match (debugName src).bind protoNumber with
  | none => (.panicked, d)
  | some num =>
    if canCreate out then
      let d1 : Disk := fun p => if p = out then some [] else d p
      match d1 src with
      | none => (.panicked, d1)
      | some bytes =>
        match w num bytes with
        | none => (.panicked, d1)
        | some (pieces, whole) =>
          (if whole then .done else .panicked, fun p => if p = out then some pieces.flatten else d p)
    else (.ioError, d)

end S2.Generator
