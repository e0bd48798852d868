import Verif.Misc.Export
/-!
# Writing a snapshot

`handle_write_snapshot` (/repo/src/arrow_store/mod.rs:146-200): seven files written one after the other into a
directory that may hold the files of an earlier snapshot.  A state is what is on the disk and where the program is; a
killed program leaves the disk as it is in that state.  Not modelled: the Arrow encoding.  An Arrow file can be read iff
its footer was written; a file without footer is `cut`, whatever it holds.  (`FileWriter` has no destructor that writes
the footer.)  `File::create` empties the file at once.
-/
namespace S2

/-- The files of a snapshot. [/repo/src/arrow_store/mod.rs:155-161] -/
inductive SnapFile where
  | details | stats | upgrades | unitBorn | unitDied | cmdTargetPoint | cmdTargetUnit
  deriving DecidableEq, Repr

/-- Their names (/repo/src/arrow_store/mod.rs:162, 165, 171, 177, 183, 189, 195). -/
def SnapFile.fileName : SnapFile → Str
  | .details => str "details.arrow"
  | .stats => str "stats.arrow"
  | .upgrades => str "upgrades.arrow"
  | .unitBorn => str "unit_born.arrow"
  | .unitDied => str "unit_died.arrow"
  | .cmdTargetPoint => str "cmd_target_point.arrow"
  | .cmdTargetUnit => str "cmd_target_unit.arrow"

/-- The tables written after the details, in order (/repo/src/arrow_store/mod.rs:163-198). -/
def SnapFile.tables : List SnapFile := [.stats, .upgrades, .unitBorn, .unitDied, .cmdTargetPoint, .cmdTargetUnit]

/-- What is in a file. [/repo/src/arrow_store/ipc_writer.rs:15-40, 75-87] -/
inductive FileC (ρ : Type) where
  /-- no footer: no reader accepts it -/
  | cut
  /-- complete: these batches -/
  | table (blocks : List (List ρ))
  deriving DecidableEq, Repr

/-- The output directory. [`output`, /repo/src/arrow_store/mod.rs:148] -/
abbrev Disk (ρ : Type) := SnapFile → Option (FileC ρ)

/-- [`File::create` and writing, /repo/src/arrow_store/ipc_writer.rs:20, 34] -/
def Disk.set {ρ : Type} (d : Disk ρ) (f : SnapFile) (c : FileC ρ) : Disk ρ := fun g => if g = f then some c else d g

/-- Where the program is. [/repo/src/arrow_store/mod.rs:146-200] -/
inductive SnapPhase (ρ : Type) where
  /-- nothing has been done -/
  | check
  /-- `handle_details_ipc_cmd` is called -/
  | start
  /-- `write_batches` has created the details file -/
  | detailsOpen
  /-- the tables still to be written -/
  | next (rest : List SnapFile)
  /-- the file of `f` is created; the sources are processed -/
  | writing (f : SnapFile) (rest : List SnapFile) (s : Export ρ)
  /-- returned or panicked -/
  | stopped (r : Res Unit)

/-- [/repo/src/arrow_store/mod.rs:146-200] -/
inductive SnapAct where
  /-- an operation of the program that succeeds -/
  | go
  /-- creating, writing to or closing a file fails -/
  | ioFail
  /-- a task of the export of a table takes a step -/
  | task (a : Action)
  deriving DecidableEq, Repr

/-- What a snapshot of given sources computes: the rows of the details table (with the result of
`try_into_arrow`) and what the tasks of every other table do. [/repo/src/arrow_store/mod.rs:146-200] -/
structure SnapJob (ρ : Type) where
  outputIsDir : Bool
  details : Res (List ρ)
  works : SnapFile → List (Work ρ)

/-- One step (/repo/src/arrow_store/mod.rs:146-200, 211, 275-276, 345-346, 401-409;
/repo/src/arrow_store/ipc_writer.rs:15-40, 75-87). -/
inductive SnapStep {ρ : Type} (job : SnapJob ρ) : SnapAct → Disk ρ → SnapPhase ρ → Disk ρ → SnapPhase ρ → Prop where
  /-- `if !output.is_dir() { panic!(..) }` -/
  | notDir (d) : job.outputIsDir = false → SnapStep job .go d .check d (.stopped .panic)
  | isDir (d) : job.outputIsDir = true → SnapStep job .go d .check d .start
  /-- computing the details rows panics -/
  | detailsPanic (d) : job.details = .panic → SnapStep job .go d .start d (.stopped .panic)
  /-- `try_into_arrow()?` -/
  | detailsErr (d e) : job.details = .err e → SnapStep job .go d .start d (.stopped (.err e))
  /-- `File::create(path)?` -/
  | detailsCreate (d rows) : job.details = .ok rows → SnapStep job .go d .start (d.set .details .cut) .detailsOpen
  | detailsCreateFail (d rows e) : job.details = .ok rows → SnapStep job .ioFail d .start d (.stopped (.err e))
  /-- `FileWriter::try_new(..)?; writer.write(&chunk)?; writer.finish()?` -/
  | detailsWrite (d rows) : job.details = .ok rows →
      SnapStep job .go d .detailsOpen (d.set .details (.table [rows])) (.next SnapFile.tables)
  | detailsWriteFail (d e) : SnapStep job .ioFail d .detailsOpen d (.stopped (.err e))
  /-- `open_arrow_mutex_writer(..)?` -/
  | create (d f rest) : SnapStep job .go d (.next (f :: rest)) (d.set f .cut) (.writing f rest (Export.initial (job.works f)))
  | createFail (d f rest e) : SnapStep job .ioFail d (.next (f :: rest)) d (.stopped (.err e))
  /-- `FileWriter::try_new(..)?` after `File::create` -/
  | headerFail (d f rest e) : SnapStep job .ioFail d (.next (f :: rest)) (d.set f .cut) (.stopped (.err e))
  /-- a closure goes on -/
  | task (d f rest pre post t t' wr wr' a) : TaskStep a t wr t' wr' →
      SnapStep job (.task a) d (.writing f rest ⟨pre ++ t :: post, wr⟩) d (.writing f rest ⟨pre ++ t' :: post, wr'⟩)
  /-- a closure has panicked: the panic is passed on (at once if the sources are processed serially, when the others
  have ended otherwise; here at any time) -/
  | crashed (d f rest s) : s.tasks.any Task.isCrashed = true → SnapStep job .go d (.writing f rest s) d (.stopped .panic)
  /-- `close_arrow_mutex_writer(writer)` -/
  | close (d f rest s) : s.finished → s.tasks.any Task.isCrashed = false →
      SnapStep job .go d (.writing f rest s) (d.set f (.table s.writer.blocks)) (.next rest)
  | closeFail (d f rest s e) : s.finished → s.tasks.any Task.isCrashed = false →
      SnapStep job .ioFail d (.writing f rest s) d (.stopped (.err e))
  /-- `Ok(())` -/
  | success (d) : SnapStep job .go d (.next []) d (.stopped (.ok ()))

/-- The states a snapshot can be in when the directory was `d0` before. [/repo/src/arrow_store/mod.rs:146-200] -/
inductive SnapRun {ρ : Type} (job : SnapJob ρ) (d0 : Disk ρ) : List SnapAct → Disk ρ → SnapPhase ρ → Prop where
  | nil : SnapRun job d0 [] d0 .check
  | step {acts a d p d' p'} : SnapRun job d0 acts d p → SnapStep job a d p d' p' → SnapRun job d0 (acts ++ [a]) d' p'

/-- A row of any of the tables. [/repo/src/arrow_store/mod.rs:216-242, 296-309, 401] -/
inductive SnapRow (D : Type) where
  | details (r : DetailsRow D)
  | stats (r : StatsRow)
  | upgrades (r : UpgradeRow)
  | unitBorn (r : BornRow)
  | unitDied (r : DiedRow)
  | cmdTargetPoint (r : CmdPointRow)
  | cmdTargetUnit (r : CmdUnitRow)

/-- The collector of a table (/repo/src/arrow_store/mod.rs:222-239, 296-309). -/
def snapRowsOf (D : Type) : SnapFile → Nat → Item → List (SnapRow D)
  | .details, _, _ => []
  | .stats, fsId, it => (statsRowOf fsId it).toList.map .stats
  | .upgrades, fsId, it => (upgradeRowOf fsId it).toList.map .upgrades
  | .unitBorn, fsId, it => (bornRowOf fsId it).toList.map .unitBorn
  | .unitDied, fsId, it => (diedRowOf fsId it).toList.map .unitDied
  | .cmdTargetPoint, fsId, it => (cmdPointRowsOf fsId it).map .cmdTargetPoint
  | .cmdTargetUnit, fsId, it => (cmdUnitRowsOf fsId it).map .cmdTargetUnit

/-- The work of a snapshot of `sources` (/repo/src/arrow_store/mod.rs:146-200); `arrow` says which row lists
`try_into_arrow` accepts. -/
def snapshotJob {D : Type} (w : World D) (bld : Build) (table : BalTable) (arrow : List (SnapRow D) → Bool) (sources : List InitFile)
    (outputIsDir : Bool) : SnapJob (SnapRow D) where
  outputIsDir := outputIsDir
  details := do
    let rows ← detailsTable w bld sources
    if arrow (rows.map .details) then pure (rows.map .details) else .err (.other 0)
  works := fun f => sources.map (tableWork w bld table (snapRowsOf D f) arrow)

end S2
