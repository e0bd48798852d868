import Verif.Misc.Rows
import Verif.Misc.Handles
/-!
# Writing tables of many replays

/repo/src/arrow_store/mod.rs:203-345 and /repo/src/arrow_store/ipc_writer.rs.  Every source is a task; tasks run
concurrently (`par_iter`) and share one writer behind a mutex.  A schedule is a sequence of atomic steps of the
tasks.  Not modelled: the Arrow encoding (a batch is a list of rows; an Arrow file is the list of the batches its
footer lists), the sum overflowing `usize`, rayon's splitting of the sources (any interleaving is allowed, which is
more than rayon does), lock poisoning (nothing that can panic is done while the lock is held: the downcast of an
array made from structs succeeds).  A write that fails is taken to leave no batch behind.
-/
namespace S2

/-- What a task does before it touches the writer: `SC2EventIterator::new(..).ok()?` and
`batch.try_into_arrow().ok()?` give `skip`, a panic gives `crash`. [/repo/src/arrow_store/mod.rs:216-242] -/
inductive Work (ρ : Type) where
  | skip
  | crash
  | batch (rows : List ρ)
  deriving DecidableEq, Repr

/-- The closure up to `write_to_arrow_mutex_writer` (/repo/src/arrow_store/mod.rs:216-242, 247-273, 296-312, 318-334).
`rows` is the collector, `arrow` says which row lists `try_into_arrow` accepts.  The collector gets one round per
byte (it always returns then, C110). -/
def tableWork {D ρ : Type} (w : World D) (bld : Build) (table : BalTable) (rows : Nat → Item → List ρ)
    (arrow : List ρ → Bool) (init : InitFile) : Work ρ :=
  match openIterator w bld init table none with
  | .err _ => .skip
  | .panic => .crash
  | .ok m =>
    match collectRows (rows init.fsId) bld init.version.toNat (m.trk.data.length + m.game.data.length + 1) m with
    | some (.ok rs) => if arrow rs then .batch rs else .skip
    | _ => .crash

/-- Where a task is. [the closures of /repo/src/arrow_store/mod.rs:216-242, /repo/src/arrow_store/ipc_writer.rs:42-71] -/
inductive Stage (ρ : Type) where
  /-- not started -/
  | start
  /-- the batch is computed; the task wants the lock -/
  | ready
  /-- the task holds the lock and still has to write `rest` -/
  | writing (rest : List ρ)
  /-- the closure returned this `Option<usize>` -/
  | done (r : Option Nat)
  /-- the closure panicked -/
  | crashed
  deriving DecidableEq, Repr

/-- [one source of /repo/src/arrow_store/mod.rs:244-273] -/
structure Task (ρ : Type) where
  work : Work ρ
  stage : Stage ρ
  deriving DecidableEq, Repr

/-- The mutex-protected writer (/repo/src/arrow_store/ipc_writer.rs:28-40): is the lock held, what has been put
into the batch being written, the batches written. -/
structure Writer (ρ : Type) where
  locked : Bool
  cur : List ρ
  blocks : List (List ρ)
  deriving DecidableEq, Repr

/-- [/repo/src/arrow_store/ipc_writer.rs:42-71] -/
inductive Action where
  | compute | acquire | put | finish | fail
  deriving DecidableEq, Repr

/-- One step of one task (/repo/src/arrow_store/mod.rs:216-242, `write_to_arrow_mutex_writer`
/repo/src/arrow_store/ipc_writer.rs:42-71). -/
inductive TaskStep {ρ : Type} : Action → Task ρ → Writer ρ → Task ρ → Writer ρ → Prop where
  /-- `.ok()?` -/
  | skip (wr) : TaskStep .compute ⟨.skip, .start⟩ wr ⟨.skip, .done none⟩ wr
  /-- a panic -/
  | crash (wr) : TaskStep .compute ⟨.crash, .start⟩ wr ⟨.crash, .crashed⟩ wr
  /-- `if batch_length == 0 { return None; }` -/
  | empty (wr) : TaskStep .compute ⟨.batch [], .start⟩ wr ⟨.batch [], .done none⟩ wr
  | computed (rows wr) : rows ≠ [] → TaskStep .compute ⟨.batch rows, .start⟩ wr ⟨.batch rows, .ready⟩ wr
  /-- `writer.lock()` -/
  | acquire (rows wr) : wr.locked = false →
      TaskStep .acquire ⟨.batch rows, .ready⟩ wr ⟨.batch rows, .writing rows⟩ { wr with locked := true, cur := [] }
  /-- a part of `file_lock.write(&chunk)` -/
  | put (work x rest wr) : TaskStep .put ⟨work, .writing (x :: rest)⟩ wr ⟨work, .writing rest⟩ { wr with cur := wr.cur ++ [x] }
  /-- `Ok(_) => Some(batch_length)`, the lock is dropped -/
  | finish (rows wr) : TaskStep .finish ⟨.batch rows, .writing []⟩ wr ⟨.batch rows, .done (some rows.length)⟩
      { locked := false, cur := [], blocks := wr.blocks ++ [wr.cur] }
  /-- `Err(err) => None`, the lock is dropped -/
  | fail (work rest wr) : TaskStep .fail ⟨work, .writing rest⟩ wr ⟨work, .done none⟩ { wr with locked := false, cur := [] }

/-- [/repo/src/arrow_store/mod.rs:211-276] -/
structure Export (ρ : Type) where
  tasks : List (Task ρ)
  writer : Writer ρ
  deriving DecidableEq, Repr

/-- `open_arrow_mutex_writer` and `sources.par_iter()` (/repo/src/arrow_store/mod.rs:211, 244-246) -/
def Export.initial {ρ : Type} (works : List (Work ρ)) : Export ρ :=
  ⟨works.map (fun w => ⟨w, .start⟩), ⟨false, [], []⟩⟩

/-- A schedule: any task may take the next step. [`par_iter`, /repo/src/arrow_store/mod.rs:244-273] -/
inductive Run {ρ : Type} (works : List (Work ρ)) : List Action → Export ρ → Prop where
  | nil : Run works [] (Export.initial works)
  | step {acts : List Action} {pre post : List (Task ρ)} {t t' : Task ρ} {wr wr' : Writer ρ} {a : Action} :
      Run works acts ⟨pre ++ t :: post, wr⟩ → TaskStep a t wr t' wr' → Run works (acts ++ [a]) ⟨pre ++ t' :: post, wr'⟩

/-- The number a closure adds to the sum. [/repo/src/arrow_store/mod.rs:243, 273] -/
def Task.count {ρ : Type} (t : Task ρ) : Nat :=
  match t.stage with
  | .done (some n) => n
  | _ => 0

/-- `.sum::<usize>()`: `total_records` (/repo/src/arrow_store/mod.rs:273-275) -/
def Export.total {ρ : Type} (s : Export ρ) : Nat := (s.tasks.map Task.count).sum

/-- Every closure has returned or panicked. [/repo/src/arrow_store/mod.rs:273] -/
def Export.finished {ρ : Type} (s : Export ρ) : Prop := ∀ t ∈ s.tasks, (∃ r, t.stage = .done r) ∨ t.stage = .crashed

/-- The closure panicked. [/repo/src/arrow_store/mod.rs:244-273] -/
def Task.isCrashed {ρ : Type} (t : Task ρ) : Bool :=
  match t.stage with
  | .crashed => true
  | _ => false

/-- The result of the export (/repo/src/arrow_store/mod.rs:274-276): a panic of a closure is passed on; otherwise the
result of closing the file. -/
def Export.result {ρ : Type} (close : Res Unit) (s : Export ρ) : Res Unit :=
  if s.tasks.any Task.isCrashed then .panic else close

/-- `write_to_arrow_mutex_writer` without contention (/repo/src/arrow_store/ipc_writer.rs:42-72); `write` says whether
the writer accepts a batch after those it already holds. -/
def writeBatch {ρ : Type} (write : List (List ρ) → List ρ → Bool) (blocks : List (List ρ)) (rows : List ρ) :
    List (List ρ) × Option Nat :=
  if rows.length = 0 then (blocks, none)
  else if write blocks rows then (blocks ++ [rows], some rows.length) else (blocks, none)

/-- The serial path (/repo/src/arrow_store/mod.rs:214-243): `sources.iter().filter_map(..).sum()`. -/
def exportSerial {ρ : Type} (write : List (List ρ) → List ρ → Bool) : List (Work ρ) → List (List ρ) → Nat →
    Res (List (List ρ) × Nat)
  | [], blocks, total => .ok (blocks, total)
  | .skip :: ws, blocks, total => exportSerial write ws blocks total
  | .crash :: _, _, _ => .panic
  | .batch rows :: ws, blocks, total =>
    match writeBatch write blocks rows with
    | (blocks', some n) => exportSerial write ws blocks' (total + n)
    | (blocks', none) => exportSerial write ws blocks' total

/-- `PlayerLobbyDetailsFlatRow` (/repo/src/details.rs:42-74) -/
structure DetailsRow (D : Type) where
  playerName : Str
  toonRegion : Int
  toonProgramId : Int
  toonRealm : Int
  toonId : Int
  race : Str
  colorA : Int
  colorR : Int
  colorG : Int
  colorB : Int
  control : Int
  teamId : Int
  observe : Int
  result : Str
  workingSetSlotId : Option Int
  hero : Str
  title : Str
  isBlizzardMap : Bool
  timeUtc : Int
  timeLocalOffset : Int
  slotUserId : Option Int
  slotObserve : Int
  mapSizeX : Int
  mapSizeY : Int
  cacheHandleRegion : Option Str
  cacheHandleExtension : Option Str
  cacheHandles : Str
  sha256 : Str
  fileName : Str
  fsId : Nat
  datetime : D
  deriving DecidableEq, Repr

/-- `From<PlayerLobbyDetails> for PlayerLobbyDetailsFlatRow` (/repo/src/details.rs:76-138) -/
def DetailsRow.of {D : Type} (p : PlayerLobby D) : Res (DetailsRow D) := do
  let h ← handleRow p.cacheHandles
  pure
    { playerName := p.player.name
      toonRegion := p.player.toon.region
      toonProgramId := p.player.toon.programId
      toonRealm := p.player.toon.realm
      toonId := p.player.toon.id
      race := p.player.race
      colorA := p.player.color.a
      colorR := p.player.color.r
      colorG := p.player.color.g
      colorB := p.player.color.b
      control := p.player.control
      teamId := p.player.teamId
      observe := p.player.observe
      result := p.player.result
      workingSetSlotId := p.player.workingSetSlotId
      hero := p.player.hero
      title := p.title
      isBlizzardMap := p.description.isBlizzardMap
      timeUtc := p.timeUtc
      timeLocalOffset := p.timeLocalOffset
      slotUserId := p.slot.userId
      slotObserve := p.slot.observe
      mapSizeX := p.description.mapSizeX
      mapSizeY := p.description.mapSizeY
      cacheHandleRegion := h.region
      cacheHandleExtension := h.extension
      cacheHandles := h.handles
      fsId := p.fsId
      sha256 := p.sha256
      fileName := p.fileName
      datetime := p.datetime }

/-- `.map(|d| d.into()).collect()` [/repo/src/arrow_store/mod.rs:362-364, 394-396] -/
def detailsRows {D : Type} : List (PlayerLobby D) → Res (List (DetailsRow D))
  | [] => .ok []
  | p :: ps => do
    let r ← DetailsRow.of p
    let rs ← detailsRows ps
    pure (r :: rs)

/-- `handle_details_ipc_cmd` and `handle_read_once_write_all`, which have the same body, up to the writing
(/repo/src/arrow_store/mod.rs:349-365, 384-400). -/
def detailsTable {D : Type} (w : World D) (bld : Build) : List InitFile → Res (List (DetailsRow D))
  | [] => .ok []
  | init :: inits =>
    match lobbyJoin w bld init with
    | .panic => .panic
    | .err _ => detailsTable w bld inits
    | .ok ps => do
      let rs ← detailsRows ps
      let rest ← detailsTable w bld inits
      pure (rs ++ rest)

end S2
