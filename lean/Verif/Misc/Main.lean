import Verif.Misc.JsonDir
import Verif.Misc.Cli
/-!
# `process_cli_request`: which command does what, and what comes before it

The commands themselves are modelled in `Misc/Cli.lean`, `Misc/Scan.lean`, `Misc/JsonDir.lean` and `Misc/Generator.lean`;
here is the function that loads the balance data and then runs one of them.  Left out: the parsing of the arguments (clap),
the set-up of the log and of the colours, `--timing`, `--tui`.
-/
namespace S2.Main

open S2

/-- `Commands` and `CommandUtils` (/repo/examples/cli/mod.rs:21-25, 67-90), with `WriteArrowIpcPropsArgs` (28-49). -/
inductive Command
  | generate
  | balanceDataToJson
  | scan
  | get (ty : Cli.ReadType)
  | writeArrowIpc (scanMax processMax depth : Nat) (minV maxV : Option Int)
  | util (tag : Int)
  deriving DecidableEq, Repr

/-- `Cli` (/repo/examples/cli/mod.rs:92-171), the options that are looked at. -/
structure Cli where
  source : Str
  jsonDir : Str
  output : Option Str
  serial : Bool
  args : S2.Cli.Args
  command : Command

/-- What the process finds around it: the replays, the assets in the binary, what is at `--source` and at
`--json-balance-data-dir` (with the listings of the two times it is read), what the XML files at `--source` hold (in
iteration order), whether `--output` is a directory; how `serde_json` reads and writes a unit; how hash maps iterate and how
rayon splits. [file system and libraries, as used by /repo/examples/cli/mod.rs:254-305] -/
structure Env (D : Type) where
  world : World D
  bld : Build
  parse : List UInt8 → Option BalUnit
  json : BalUnit → List (List UInt8)
  assets : List (Str × List UInt8)
  tree : JsonDir.Tree
  listing : JsonDir.Dirs
  listing2 : JsonDir.Dirs
  node : Files.Node
  xml : Res (List ((Nat × Str) × BalUnit))
  outputIsDir : Bool
  arrow : List (SnapRow D) → Bool
  ord : List (Str × Nat) → List (Str × Nat)
  split : Split

/-- The entries of the `HashMap`: a key that was inserted again has the newer unit. [std; the iteration order is arbitrary;
/repo/examples/cli/mod.rs:254-259] -/
def tableOf : UnitTable BalUnit → BalTable
  | [] => []
  | ((v, n), u) :: rest => (((v : Int), n), u) :: (tableOf rest).filter (fun e => decide (e.1 ≠ ((v : Int), n)))

/-- What a command has done (/repo/examples/cli/mod.rs:260-305): called the generator, written the JSON files, printed JSON,
collected rows to write, printed a tag, printed statistics. -/
inductive Effect (D : Type)
  | generate (source output : Str)
  | write (ops : List JsonDir.Op)
  | print (out : List S2.Cli.Out)
  | rows (job : SnapJob (SnapRow D))
  | tag (index recycle : Nat)
  | stats (s : DirStats)

/-- An outcome with an effect only if it succeeded. [`?`, /repo/examples/cli/mod.rs:260-305] -/
def done {D α : Type} (f : α → Effect D) : Res α → List (Effect D) × Res Unit
  | .ok a => ([f a], .ok ())
  | .err e => ([], .err e)
  | .panic => ([], .panic)

/-- The balance data (/repo/examples/cli/mod.rs:254-259, and again /repo/examples/cli/cmd_get.rs:35-40): from the directory
if one is given, else from the binary. -/
def load {D : Type} (e : Env D) (c : Cli) (listing : JsonDir.Dirs) : Res (UnitTable BalUnit) :=
  if c.jsonDir = [] then readAssets e.parse e.assets [] else JsonDir.readDest e.parse e.tree listing

/-- `match &cli.command` (/repo/examples/cli/mod.rs:260-305). -/
def runCommand {D : Type} (e : Env D) (c : Cli) (table : BalTable) : List (Effect D) × Res Unit :=
  match c.command with
  | .generate =>
    match c.output with
    | some o => ([.generate c.source o], .ok ())
    | none => ([], .panic)
  | .balanceDataToJson =>
    if c.source = [] then ([], .err (.other 11))
    else if c.jsonDir = [] then ([], .err (.other 11))
    else done (fun t => .write (JsonDir.writeOps e.json t)) e.xml
  | .get ty =>
    match load e c e.listing2 with
    | .ok t =>
      let (out, r) := S2.Cli.handleGet e.world e.bld (tableOf t) c.args ty c.source e.node
      ([.print out], r)
    | .err x => ([], .err x)
    | .panic => ([], .panic)
  | .writeArrowIpc scanMax processMax depth minV maxV =>
    match c.output with
    | some _ => done .rows (S2.Cli.arrowJob e.world e.bld table e.arrow scanMax processMax depth minV maxV
        (if c.serial then none else some e.split) c.source e.node e.outputIsDir)
    | none => ([], .panic)
  | .util tag =>
    ([.tag (unitTagIndex (BitVec.ofInt 64 tag)).toNat (unitTagRecycle (BitVec.ofInt 64 tag)).toNat], .ok ())
  | .scan => done .stats (scanPath e.world e.bld e.ord table (some e.split) c.source e.node)

/-- `process_cli_request` (/repo/examples/cli/mod.rs:209-310). -/
def process {D : Type} (e : Env D) (c : Cli) : List (Effect D) × Res Unit :=
  match load e c e.listing with
  | .ok t => runCommand e c (tableOf t)
  | .err x => ([], .err x)
  | .panic => ([], .panic)

end S2.Main
