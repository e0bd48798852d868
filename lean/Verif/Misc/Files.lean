import Verif.Text
/-!
# Replay discovery

The file system is a finite tree.  Symbolic links are followed by `is_dir`/`is_file`, so a link
counts as what it points to; link cycles are cut by `max_depth`, so unfolding them that deep
is the same.  I/O errors (`read_dir(..)?`, `entry?`) are not modelled.
-/
namespace S2.Files

open S2

/-- What a path denotes: a regular file, a directory with its entries in `read_dir` order, or
something else (socket, broken link...). [/repo/src/lib.rs:211-231] -/
inductive Node
  | file
  | dir (entries : List (Str × Node))
  | other

/-- A path: its components. [/repo/src/lib.rs:203] -/
abbrev Path := List Str

/-- `Path::extension` of a last component `name` (std): the part after the last dot; none if there
is no dot or the only dot is the first byte.  (`..` cannot occur in `read_dir`.) [called at /repo/src/lib.rs:228] -/
def extension (name : Str) : Option Str :=
  let rev := name.reverse
  let ext := rev.takeWhile (fun b => b != 46)
  match rev.drop ext.length with
  | [] => none
  | [_] => none
  | _ :: _ :: _ => some ext.reverse

/-- `usize` subtraction. [/repo/src/lib.rs:219, 222] -/
def subUsize (bld : Build) (a b : Nat) : Res Nat :=
  if b ≤ a then .ok (a - b) else
    match bld with
    | .debug => .panic
    | .release => .ok (a + 2 ^ 64 - b)

/-- The loop over directory entries of `get_matching_files`, /repo/src/lib.rs:216-241.
`rec path node max` is the recursive call (already given `max_depth - 1`). -/
def scanEntries (bld : Build) (rec : Path → Node → Nat → Res (List Path)) (path : Path) (maxFiles : Nat) :
    List (Str × Node) → List Path → Res (List Path)
  | [], sources => .ok sources
  | (name, .dir es) :: rest, sources => do
    let room ← subUsize bld maxFiles sources.length
    let sub ← rec (path ++ [name]) (.dir es) room
    if sub.isEmpty then scanEntries bld rec path maxFiles rest sources
    else do
      let remaining ← subUsize bld maxFiles sources.length
      let sub := if sub.length > remaining then sub.take remaining else sub
      scanEntries bld rec path maxFiles rest (sources ++ sub)
  | (name, .file) :: rest, sources =>
    if extension name = some (str "SC2Replay") then
      if sources.length ≥ maxFiles then .ok sources
      else scanEntries bld rec path maxFiles rest (sources ++ [path ++ [name]])
    else scanEntries bld rec path maxFiles rest sources
  | (_, .other) :: rest, sources => scanEntries bld rec path maxFiles rest sources

/-- `get_matching_files`, /repo/src/lib.rs:202-242; `node` is what `source` denotes. -/
def getMatchingFiles (bld : Build) (source : Path) (node : Node) (maxFiles : Nat) : Nat → Res (List Path)
  | 0 => .ok []
  | d + 1 =>
    match node with
    | .dir es => scanEntries bld (fun p n m => getMatchingFiles bld p n m d) source maxFiles es []
    | _ => .ok []

end S2.Files
