import Verif.Misc.Replay
import Verif.Misc.Files
/-!
# Directory statistics and the choice of replays to export

/repo/src/dir_stats.rs and the first half of `handle_arrow_ipc_cmd` (/repo/src/arrow_store/mod.rs:412-475).
Files do not change while they are scanned (`World` is a fixed function).  Counters are natural numbers (a
`usize` cannot overflow by counting files).
-/
namespace S2

/-- `sources.iter().enumerate().filter_map(|(index, source)| read(source, index).ok()).collect()`
(/repo/src/dir_stats.rs:61-66, /repo/src/arrow_store/mod.rs:431-438), from index `i`. -/
def readInits {α : Type} (read : Str → Nat → Res α) : Nat → List Str → Res (List α)
  | _, [] => .ok []
  | i, s :: ss =>
    match read s i with
    | .panic => .panic
    | .err _ => readInits read (i + 1) ss
    | .ok x => do
      let xs ← readInits read (i + 1) ss
      pure (x :: xs)

/-- How rayon cuts an indexed parallel iterator into jobs: not at all, or after `k` items, and then each part
again. [`par_iter`, /repo/src/dir_stats.rs:68-72, /repo/src/arrow_store/mod.rs:440-447] -/
inductive Split
  | leaf
  | node (k : Nat) (l r : Split)

/-- `sources.par_iter().enumerate().filter_map(…).collect()` (/repo/src/dir_stats.rs:68-72,
/repo/src/arrow_store/mod.rs:440-447): every part is computed on its own, possibly at the same time, and the
results are concatenated; a panic in either part panics. -/
def readInitsPar {α : Type} (read : Str → Nat → Res α) : Split → Nat → List Str → Res (List α)
  | .leaf, i, ss => readInits read i ss
  | .node k l r, i, ss => do
    let a ← readInitsPar read l i (ss.take k)
    let b ← readInitsPar read r (i + (ss.take k).length) (ss.drop k)
    pure (a ++ b)

/-- `SC2ReplaysDirStats` (/repo/src/dir_stats.rs:14-25) -/
structure DirStats where
  totalFiles : Nat
  supported : Nat
  abilitySupported : Nat
  topPlayers : List (Str × Nat)
  topMaps : List (Str × Nat)
  deriving DecidableEq, Repr

/-- `*freq.entry(key).or_insert(0) += 1` [/repo/src/dir_stats.rs:86, 88] -/
def bump (k : Str) : List (Str × Nat) → List (Str × Nat)
  | [] => [(k, 1)]
  | (k', n) :: rest => if k' = k then (k', n + 1) :: rest else (k', n) :: bump k rest

/-- The variables of the loop. [/repo/src/dir_stats.rs:48-57] -/
structure ScanAcc where
  abilitySupported : Nat
  users : List (Str × Nat)
  maps : List (Str × Nat)
  deriving DecidableEq, Repr

/-- The loop over the readable replays (/repo/src/dir_stats.rs:77-89). -/
def scanLoop {D : Type} (w : World D) (bld : Build) (versions : List Int) : List InitFile → ScanAcc → Res ScanAcc
  | [], acc => .ok acc
  | init :: rest, acc =>
    let n := if versions.contains init.version then acc.abilitySupported + 1 else acc.abilitySupported
    match DetailsFile.ofInit w bld init with
    | .panic => .panic
    | .err _ => scanLoop w bld versions rest { acc with abilitySupported := n }
    | .ok det =>
      scanLoop w bld versions rest
        { abilitySupported := n
          users := det.details.playerNames.foldl (fun m u => bump u m) acc.users
          maps := bump det.details.title acc.maps }

/-- `into_iter().collect()`, `sort_by_key(Reverse(count))` (a stable sort), `take(10)`
(/repo/src/dir_stats.rs:91-96).  `ord` is the iteration order of the hash map. -/
def top10 (ord : List (Str × Nat) → List (Str × Nat)) (freq : List (Str × Nat)) : List (Str × Nat) :=
  (sortBy (fun a b => decide (b.2 ≤ a.2)) (ord freq)).take 10

/-- `scan_path` after the files are listed (/repo/src/dir_stats.rs:48-99).  `split`: serial, or parallel in
some way. -/
def scanSources {D : Type} (w : World D) (bld : Build) (ord : List (Str × Nat) → List (Str × Nat)) (table : BalTable)
    (split : Option Split) (sources : List Str) : Res DirStats := do
  let inits ← match split with
    | none => readInits (InitFile.tryRead w bld) 0 sources
    | some sp => readInitsPar (InitFile.tryRead w bld) sp 0 sources
  let acc ← scanLoop w bld (table.map (fun e => e.1.1)) inits ⟨0, [], []⟩
  pure ⟨sources.length, inits.length, acc.abilitySupported, top10 ord acc.users, top10 ord acc.maps⟩

/-- The text of a path found in a directory: `source.to_str()`. [/repo/src/dir_stats.rs:108-111] -/
def pathText (p : Files.Path) : Str := (p.intersperse [47]).flatten

/-- `scan_path` (/repo/src/dir_stats.rs:39-99); `node` is what `dir` denotes. -/
def scanPath {D : Type} (w : World D) (bld : Build) (ord : List (Str × Nat) → List (Str × Nat)) (table : BalTable)
    (split : Option Split) (dir : Str) (node : Files.Node) : Res DirStats := do
  let paths ← Files.getMatchingFiles bld [dir] node 1000000 10
  scanSources w bld ord table split (paths.map pathText)

/-- The version filter (/repo/src/arrow_store/mod.rs:449-463). -/
def versionOk (minV maxV : Option Int) (init : InitFile) : Bool :=
  (match minV with
    | some m => !decide (init.version < m)
    | none => true) &&
  (match maxV with
    | some m => !decide (init.version > m)
    | none => true)

/-- The replays `handle_arrow_ipc_cmd` exports, once the files are listed
(/repo/src/arrow_store/mod.rs:428-473). -/
def selectSources {D : Type} (w : World D) (bld : Build) (minV maxV : Option Int) (processMax : Nat)
    (split : Option Split) (sources : List Str) : Res (List InitFile) := do
  let inits ← match split with
    | none => readInits (InitFile.read w bld) 0 sources
    | some sp => readInitsPar (InitFile.read w bld) sp 0 sources
  let chosen := (inits.filter (versionOk minV maxV)).take processMax
  if chosen.isEmpty then .panic else pure chosen

end S2
