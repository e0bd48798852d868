import Verif.Basic
import Verif.Text
import Verif.Misc.Files
/-!
# Balance data on disk

/repo/src/game_events/ability/balance_data/json_handler.rs and the directory walk of
/repo/src/game_events/ability/balance_data/mod.rs.  Units are opaque (`U`); the JSON encoder and decoder (`serde_json`)
and the XML decoder (`serde_xml_rs`) are parameters.  A directory is given as the list `read_dir` returns, in the order
it returns it; the file system itself never fails.  File names are byte strings (`to_string_lossy` is not modelled).
-/
namespace S2

/-- `{}` of an unsigned number, at most `fuel` digits. [std] -/
def decimalAux : Nat → Nat → Str
  | 0, _ => []
  | fuel + 1, n => if n < 10 then [UInt8.ofNat (48 + n)] else decimalAux fuel (n / 10) ++ [UInt8.ofNat (48 + n % 10)]

/-- `format!("{}", version)` for a `u32` [/repo/src/game_events/ability/balance_data/json_handler.rs:12-77] -/
def decimal (n : Nat) : Str := decimalAux (n + 1) n

/-- The digit loop of `u32::from_str_radix(_, 10)` with its overflow checks. [std; called at /repo/src/game_events/ability/balance_data/json_handler.rs:62, 109] -/
def parseDigits : Nat → Str → Option Nat
  | acc, [] => some acc
  | acc, c :: cs =>
    if 48 ≤ c.toNat ∧ c.toNat ≤ 57 then
      if acc * 10 + (c.toNat - 48) < 2 ^ 32 then parseDigits (acc * 10 + (c.toNat - 48)) cs else none
    else none

/-- `str::parse::<u32>()`: an optional `+`, then at least one digit. [std; called at /repo/src/game_events/ability/balance_data/json_handler.rs:62, 109] -/
def parseU32 (s : Str) : Option Nat :=
  match s with
  | [] => none
  | [43] => none
  | 43 :: cs => parseDigits 0 cs
  | cs => parseDigits 0 cs

/-- Removes ".json" from the front of a reversed text, as often as it is there. [std; called at /repo/src/game_events/ability/balance_data/json_handler.rs:82, 116] -/
def stripNosj : Str → Str
  | 110 :: 111 :: 115 :: 106 :: 46 :: rest => stripNosj rest
  | s => s

/-- `trim_end_matches(".json")` [std; called at /repo/src/game_events/ability/balance_data/json_handler.rs:82, 116] -/
def trimJson (s : Str) : Str := (stripNosj s.reverse).reverse

/-- `split('/')` [std; called at /repo/src/game_events/ability/balance_data/json_handler.rs:104] -/
def splitSlash : Str → List Str
  | [] => [[]]
  | c :: cs =>
    if c = 47 then [] :: splitSlash cs
    else match splitSlash cs with
      | [] => [[c]]
      | p :: ps => (c :: p) :: ps

/-- `format!("{}/{}.json", version, unit_name)` (/repo/src/game_events/ability/balance_data/json_handler.rs:26-28) -/
def assetPath (version : Nat) (name : Str) : Str := decimal version ++ [47] ++ name ++ str ".json"

/-- The key of an asset, or `none` if it is skipped
(/repo/src/game_events/ability/balance_data/json_handler.rs:104-118). -/
def assetKey (fname : Str) : Option (Nat × Str) :=
  match splitSlash fname with
  | [a, b] =>
    match parseU32 a with
    | some v => some (v, trimJson b)
    | none => none
  | _ => none

/-- The hash map being filled: the entries inserted so far, last first. [/repo/src/game_events/ability/balance_data/json_handler.rs:84, 99, 118] -/
abbrev UnitTable (U : Type) := List ((Nat × Str) × U)

/-- `HashMap::get` [std] -/
def UnitTable.get {U : Type} (t : UnitTable U) (k : Nat × Str) : Option U :=
  (t.find? (fun e => decide (e.1 = k))).map Prod.snd

/-- `read_balance_data_from_included_assets` (/repo/src/game_events/ability/balance_data/json_handler.rs:96-125) on
the assets of the archive: an asset that is not JSON ends the reading. -/
def readAssets {U : Type} (parse : List UInt8 → Option U) : List (Str × List UInt8) → UnitTable U → Res (UnitTable U)
  | [], t => .ok t
  | (fname, content) :: rest, t =>
    match assetKey fname with
    | none => readAssets parse rest t
    | some k =>
      match parse content with
      | none => .err (.other 9)
      | some u => readAssets parse rest ((k, u) :: t)

/-- The files of one version directory (/repo/src/game_events/ability/balance_data/json_handler.rs:72-87); entries
without content are not files. -/
def readVersionDir {U : Type} (parse : List UInt8 → Option U) (version : Nat) :
    List (Str × Option (List UInt8)) → UnitTable U → Res (UnitTable U)
  | [], t => .ok t
  | (_, none) :: rest, t => readVersionDir parse version rest t
  | (fname, some content) :: rest, t =>
    match parse content with
    | none => .err (.other 9)
    | some u => readVersionDir parse version rest (((version, trimJson fname), u) :: t)

/-- `read_balance_data_from_json_dir` (/repo/src/game_events/ability/balance_data/json_handler.rs:45-94); entries of
the root without a listing are not directories. -/
def readJsonDir {U : Type} (parse : List UInt8 → Option U) :
    List (Str × Option (List (Str × Option (List UInt8)))) → UnitTable U → Res (UnitTable U)
  | [], t => .ok t
  | (_, none) :: rest, t => readJsonDir parse rest t
  | (dname, some entries) :: rest, t =>
    match parseU32 dname with
    | none => readJsonDir parse rest t
    | some v => do
      let t' ← readVersionDir parse v entries t
      readJsonDir parse rest t'

/-- `write_balance_data_to_json` (/repo/src/game_events/ability/balance_data/json_handler.rs:14-42): the files written,
each with the components of its path below the root. -/
def writeJson {U : Type} (json : U → List UInt8) (table : List ((Nat × Str) × U)) : List (List Str × List UInt8) :=
  table.map (fun e => (splitSlash (assetPath e.1.1 e.1.2), json e.2))

/-- The XML files of one version (/repo/src/game_events/ability/balance_data/mod.rs:55-77): files with another extension
are ignored, a file that is not text ends everything, a file that is not a unit is logged and left out; the key has the
unit's own id, whatever the file is called. -/
def readXmlDir {U : Type} (parse : List UInt8 → Option U) (ident : U → Str) (version : Nat) :
    List (Str × Option (List UInt8)) → UnitTable U → Res (UnitTable U)
  | [], t => .ok t
  | (_, none) :: rest, t => readXmlDir parse ident version rest t
  | (fname, some content) :: rest, t =>
    if Files.extension fname = some (str "xml") then
      if utf8Ok content then
        match parse content with
        | none => readXmlDir parse ident version rest t
        | some u => readXmlDir parse ident version rest (((version, ident u), u) :: t)
      else .err .utf8
    else readXmlDir parse ident version rest t

/-- `traverse_versioned_balance_abilities` (/repo/src/game_events/ability/balance_data/mod.rs:12-77): every entry of the
root with the listing of its `BalanceData` directory, if it is a directory that has one. -/
def readXmlRoot {U : Type} (parse : List UInt8 → Option U) (ident : U → Str) :
    List (Str × Option (List (Str × Option (List UInt8)))) → UnitTable U → Res (UnitTable U)
  | [], t => .ok t
  | (_, none) :: rest, t => readXmlRoot parse ident rest t
  | (dname, some entries) :: rest, t =>
    match parseU32 dname with
    | none => readXmlRoot parse ident rest t
    | some v => do
      let t' ← readXmlDir parse ident v entries t
      readXmlRoot parse ident rest t'

end S2
