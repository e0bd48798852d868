import Verif.Misc.Snapshot
import Verif.Props.Export
/-! # What is on the disk while and after a snapshot is written -/
namespace S2

/-- The order in which the files are written. -/
def snapOrder : List SnapFile :=
  [.details, .stats, .upgrades, .unitBorn, .unitDied, .cmdTargetPoint, .cmdTargetUnit]

/-- File `f` is complete and comes from this run: the details file holds the details rows in one batch; any other file
holds whole batches of sources of this run, none twice. -/
def NewFile {ρ : Type} (job : SnapJob ρ) (f : SnapFile) (c : Option (FileC ρ)) : Prop :=
  if f = .details then ∃ rows, job.details = .ok rows ∧ c = some (.table [rows])
  else ∃ blocks l, c = some (.table blocks) ∧ l.Sublist (batches (job.works f)) ∧ blocks.Perm l

/-- File `f` is complete and holds everything of this run. -/
def FullFile {ρ : Type} (job : SnapJob ρ) (f : SnapFile) (c : Option (FileC ρ)) : Prop :=
  if f = .details then ∃ rows, job.details = .ok rows ∧ c = some (.table [rows])
  else ∃ blocks, c = some (.table blocks) ∧ blocks.Perm (batches (job.works f))

/-- At most one file, `f` in the middle, is in the making: the ones before it are new, the ones after it are as they were
before the run. -/
def CrashPoint {ρ : Type} (job : SnapJob ρ) (before now : Disk ρ) (written : List SnapFile) (rest : List SnapFile) : Prop :=
  snapOrder = written ++ rest ∧ (∀ f ∈ written, NewFile job f (now f)) ∧
  (∀ f, rest.head? = some f → now f = before f ∨ now f = some .cut) ∧ (∀ f ∈ rest.tail, now f = before f)

/-- Can the file be read? -/
def readableFile {ρ : Type} (c : Option (FileC ρ)) : Option (List (List ρ)) :=
  match c with
  | some (.table b) => some b
  | _ => none

end S2
