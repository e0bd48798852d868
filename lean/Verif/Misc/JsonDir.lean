import Verif.Misc.BalanceFiles
/-!
# `balance-data-to-json` on a file system that holds something already

The command of /repo/examples/cli/mod.rs as a sequence of file system calls below the destination directory, so that it
can be stopped after any of them.  Paths are lists of components, taken literally (`.`, `..` and empty components, which
only a unit name with a '/' can make, are not resolved); links, permissions and I/O errors are not modelled except that a
run can stop after any call.
-/
namespace S2.JsonDir

open S2

/-- What is at a path: a file with its content, or a directory. [file system, as used by /repo/src/game_events/ability/balance_data/json_handler.rs:14-94] -/
inductive Entry
  | file (content : List UInt8)
  | dir
  deriving DecidableEq, Repr

/-- The file system below the destination directory; `[]` is that directory itself. [file system, as used by
/repo/src/game_events/ability/balance_data/json_handler.rs:14-94] -/
abbrev Tree := List Str → Option Entry

/-- The system calls of the writer (/repo/src/game_events/ability/balance_data/json_handler.rs:30-40). -/
inductive Op
  | mkdirs (p : List Str)
  | create (p : List Str)
  | append (p : List Str) (bytes : List UInt8)
  deriving DecidableEq, Repr

/-- The paths that `create_dir_all` makes directories: `p` and everything above it. [std; called at
/repo/src/game_events/ability/balance_data/json_handler.rs:31] -/
def isPrefix (q p : List Str) : Bool := q.isPrefixOf p

/-- Is it a file? [std; `create_dir_all` called at /repo/src/game_events/ability/balance_data/json_handler.rs:31] -/
def isFile : Option Entry → Bool
  | some (.file _) => true
  | _ => false

/-- One system call; `none` is an error, which leaves the tree as it is. `create_dir_all`, `File::create` (truncates) and
`write` [std; called at /repo/src/game_events/ability/balance_data/json_handler.rs:31, 36, 39]. -/
def Op.run (t : Tree) : Op → Option Tree
  | .mkdirs p =>
    if (List.range (p.length + 1)).all (fun i => !isFile (t (p.take i))) then
      some (fun q => if isPrefix q p then some .dir else t q)
    else none
  | .create p =>
    match t p with
    | some .dir => none
    | _ => if t p.dropLast = some .dir then some (fun q => if q = p then some (.file []) else t q) else none
  | .append p bytes =>
    match t p with
    | some (.file c) => some (fun q => if q = p then some (.file (c ++ bytes)) else t q)
    | _ => none

/-- The calls one after the other; the first that fails ends the run (`?`). [/repo/src/game_events/ability/balance_data/json_handler.rs:25-41] -/
def runOps : List Op → Tree → Tree × Bool
  | [], t => (t, true)
  | op :: ops, t =>
    match op.run t with
    | some t' => runOps ops t'
    | none => (t, false)

/-- Where a unit is written (/repo/src/game_events/ability/balance_data/json_handler.rs:26-28). -/
def unitPath (k : Nat × Str) : List Str := splitSlash (assetPath k.1 k.2)

/-- The calls for one unit (/repo/src/game_events/ability/balance_data/json_handler.rs:26-39).  `json u` are the pieces
that `to_writer_pretty` hands to the (unbuffered) file one after the other. -/
def unitOps {U : Type} (json : U → List (List UInt8)) (e : (Nat × Str) × U) : List Op :=
  .mkdirs (unitPath e.1).dropLast :: .create (unitPath e.1) :: (json e.2).map (.append (unitPath e.1))

/-- `write_balance_data_to_json` (/repo/src/game_events/ability/balance_data/json_handler.rs:14-42); `table` is the
`HashMap` in the order in which it is iterated over. -/
def writeOps {U : Type} (json : U → List (List UInt8)) (table : List ((Nat × Str) × U)) : List Op :=
  table.flatMap (unitOps json)

/-- What `read_dir` finds below the destination. [std; called at /repo/src/game_events/ability/balance_data/json_handler.rs:56, 73] -/
abbrev Dirs := List (Str × Option (List (Str × Option (List UInt8))))

/-- `dirs` are the entries of the destination with those of its directories, in some order. [std: `read_dir`; called at
/repo/src/game_events/ability/balance_data/json_handler.rs:56-60, 73-75] -/
structure Lists (t : Tree) (dirs : Dirs) : Prop where
  file : ∀ d f c, (t [d] = some .dir ∧ t [d, f] = some (.file c)) ↔ ∃ es, (d, some es) ∈ dirs ∧ (f, some c) ∈ es

/-- `read_balance_data_from_json_dir` (/repo/src/game_events/ability/balance_data/json_handler.rs:45-94) of a destination
that need not be there: `read_dir` fails on what is not a directory. -/
def readDest {U : Type} (parse : List UInt8 → Option U) (t : Tree) (dirs : Dirs) : Res (UnitTable U) :=
  if t [] = some .dir then readJsonDir parse dirs [] else .err (.other 10)

/-- The options the command looks at: `--source` and `--json-balance-data-dir` are there or are empty.
(/repo/examples/cli/mod.rs:87-110) -/
structure Options where
  source : Bool
  dest : Bool

/-- What every command does first (/repo/examples/cli/mod.rs:254-259): the balance data are loaded, from the directory
or from the binary. -/
def loadBalance {U : Type} (parse : List UInt8 → Option U) (assets : List (Str × List UInt8)) (o : Options) (t : Tree)
    (dirs : Dirs) : Res (UnitTable U) :=
  if o.dest then readDest parse t dirs else readAssets parse assets []

/-- `process_cli_request` with `BalanceDataToJson` (/repo/examples/cli/mod.rs:254-280): the balance data are loaded (and
not used), then the XML units are read - `xml` is what `traverse_versioned_balance_abilities` returns, in the order in
which the `HashMap` is iterated over - and what remains is the writing. -/
def convert {U : Type} (parse : List UInt8 → Option U) (json : U → List (List UInt8)) (assets : List (Str × List UInt8))
    (o : Options) (xml : Res (List ((Nat × Str) × U))) (t : Tree) (dirs : Dirs) : Res (List Op) := do
  let _ ← loadBalance parse assets o t dirs
  if o.source then
    if o.dest then do
      let table ← xml
      pure (writeOps json table)
    else .err (.other 11)
  else .err (.other 11)

end S2.JsonDir
