import Verif.Misc.Scan
import Verif.Misc.Snapshot

/-!
# The command line tool: `get` and `write-arrow-ipc`

What is printed on standard output is a list of tokens: the punctuation the tool prints itself, and the JSON texts
it gets from `serde_json` (which are one value each, kept as the value).  Left out: white space, the colour codes
`syntect_json_print` puts around the texts, the log, the text UI (`--tui`), `--timing`, and errors of the output
itself.
-/
namespace S2.Cli

open S2

/-- `ReadTypes` (/repo/examples/cli/cmd_get.rs:13-27) -/
inductive ReadType
  | trackerEvents | gameEvents | messageEvents | details | initData | transistEvents
  deriving DecidableEq, Repr

/-- The options of `Cli` that `get` looks at (/repo/examples/cli/mod.rs:131-165). -/
structure Args where
  playerId : Option Int
  minLoop : Option Int
  maxLoop : Option Int
  eventType : Option Str
  unitName : Option Str
  maxEvents : Option Nat
  includeStats : Bool
  quiet : Bool
  deriving DecidableEq, Repr

/-- No option given (/repo/examples/cli/mod.rs:131-165). -/
def Args.none : Args := ⟨.none, .none, .none, .none, .none, .none, false, false⟩

/-- `From<Cli> for SC2ReplayFilters` (/repo/examples/cli/mod.rs:318-331) -/
def Args.filters (a : Args) : Filters :=
  { playerId := a.playerId, unitTag := .none, minLoop := a.minLoop, maxLoop := a.maxLoop, eventType := a.eventType,
    unitName := a.unitName, maxEvents := a.maxEvents, includeStats := a.includeStats }

/-- What `serde_json` turns into text (/repo/examples/cli/cmd_get.rs:83, 96, 108, 118, 125, 151). -/
inductive Json
  | item (i : Item)
  | message (loop user : Int) (e : ChatEvt)
  | details (d : Details)
  | init (i : InitFile)
  deriving Repr

/-- A token on standard output (`println!` and `syntect_json_print`, /repo/examples/cli/cmd_get.rs:80-160). -/
inductive Out
  | lb | rb | comma
  | json (j : Json)
  deriving Repr

/-- `for evt in res.into_iter()`: the items delivered, and how the loop ends.  In `n` rounds; see `C110` for why
they suffice. (/repo/examples/cli/cmd_get.rs:81, 94, 148) -/
def forEach (bld : Build) (version : Nat) : Nat → MState → List Item × Res Unit
  | 0, _ => ([], .panic)
  | n + 1, m =>
    match mnext bld version (n + 1) m with
    | .none => ([], .panic)
    | some (.panic, _) => ([], .panic)
    | some (.err e, _) => ([], .err e)
    | some (.ok .none, _) => ([], .ok ())
    | some (.ok (some it), m') =>
      let (its, r) := forEach bld version n m'
      (it :: its, r)

/-- The `]` comes only if the loop ended (/repo/examples/cli/cmd_get.rs:88, 101, 160). -/
def closing : Res Unit → List Out
  | .ok _ => [.rb]
  | _ => []

/-- `matches!(self.event_type, SC2EventType::Tracker { .. })` (/repo/src/state/mod.rs:627-629) -/
def isTrackerEvent (i : Item) : Bool :=
  match i.event with
  | .tracker _ _ => true
  | _ => false

/-- `matches!(self.event_type, SC2EventType::Game { .. })` (/repo/src/state/mod.rs:622-624) -/
def isGameEvent (i : Item) : Bool :=
  match i.event with
  | .game _ _ _ _ => true
  | _ => false

/-- `e?` with `e` an error or a panic: nothing is printed. (/repo/examples/cli/cmd_get.rs:76, 79, 92, 104, 116, 132) -/
def failed {α : Type} : Res α → List Out × Res Unit
  | .ok _ => ([], .ok ())
  | .err e => ([], .err e)
  | .panic => ([], .panic)

/-- The body of the tracker and game cases (/repo/examples/cli/cmd_get.rs:78-102). -/
def printEvents {D : Type} (w : World D) (bld : Build) (table : BalTable) (init : InitFile) (keep : Item → Bool) :
    List Out × Res Unit :=
  match openIterator w bld init table .none with
  | .ok m =>
    let (its, r) := forEach bld init.version.toNat (m.trk.data.length + m.game.data.length + 1) m
    (.lb :: (its.filter keep).map (fun i => .json (.item i)) ++ closing r, r)
  | bad => failed bad

/-- Rounds for the message reader: one per byte, and one more (`C30_message_terminates`). [the loop of
/repo/src/versions/protocol87702/events/message/mod.rs:29-60] -/
def messageRounds (a : Archive) : Nat :=
  match a.sector "replay.message.events" with
  | .ok d => d.length + 1
  | _ => 1

/-- `match read_type` (/repo/examples/cli/cmd_get.rs:77-163), without the `--tui` branch. -/
def printReplay {D : Type} (w : World D) (bld : Build) (table : BalTable) (args : Args) (ty : ReadType) (a : Archive)
    (init : InitFile) : List Out × Res Unit :=
  match ty with
  | .trackerEvents => printEvents w bld table init isTrackerEvent
  | .gameEvents => printEvents w bld table init isGameEvent
  | .messageEvents =>
    match readMessageEventsOf bld (messageRounds a) a with
    | some (.ok es) => (.lb :: es.map (fun e => .json (.message e.1 e.2.1 e.2.2)) ++ [.rb], .ok ())
    | some bad => failed bad
    | .none => ([], .panic)
  | .details =>
    match readDetailsOf bld a with
    | .ok d => ([.json (.details d)], .ok ())
    | bad => failed bad
  | .initData => ([.json (.init init)], .ok ())
  | .transistEvents =>
    match openIterator w bld init table (some args.filters) with
    | .ok m =>
      let (its, r) := forEach bld init.version.toNat (m.trk.data.length + m.game.data.length + 1) m
      if args.quiet then ([], r)
      else (.lb :: its.flatMap (fun i => [.json (.item i), .comma]) ++ closing r, r)
    | bad => failed bad

/-- One round of the loop over the sources (/repo/examples/cli/cmd_get.rs:54-164).  `Ok` means: go on. -/
def getSource {D : Type} (w : World D) (bld : Build) (table : BalTable) (args : Args) (ty : ReadType) (path : Str) :
    List Out × Res Unit :=
  match w.file path with
  | .err _ => ([], .ok ())
  | .panic => ([], .panic)
  | .ok content =>
    match w.mpq content with
    | .err _ => ([], .ok ())
    | .panic => ([], .panic)
    | .ok a =>
      if utf8Ok path then
        match InitFile.new w bld path 0 a content with
        | .ok init => printReplay w bld table args ty a init
        | bad => failed bad
      else ([], .panic)

/-- The loop (/repo/examples/cli/cmd_get.rs:54-164): the first `?` that fails ends it. -/
def getLoop {D : Type} (w : World D) (bld : Build) (table : BalTable) (args : Args) (ty : ReadType) :
    List Str → List Out × Res Unit
  | [] => ([], .ok ())
  | p :: ps =>
    match getSource w bld table args ty p with
    | (out, .ok _) =>
      let (rest, r) := getLoop w bld table args ty ps
      (out ++ rest, r)
    | bad => bad

/-- The sources (/repo/examples/cli/cmd_get.rs:41-53): of a directory its regular files. -/
def sources (source : Str) : Files.Node → List Str
  | .dir es => es.filterMap (fun e =>
      match e.2 with
      | .file => some (pathText [source, e.1])
      | _ => .none)
  | _ => [source]

/-- `handle_get_cmd` (/repo/examples/cli/cmd_get.rs:29-166), once the balance data are loaded; `node` is what
`source` denotes. -/
def handleGet {D : Type} (w : World D) (bld : Build) (table : BalTable) (args : Args) (ty : ReadType) (source : Str)
    (node : Files.Node) : List Out × Res Unit :=
  getLoop w bld table args ty (sources source node)

/-- `handle_arrow_ipc_cmd` (/repo/src/arrow_store/mod.rs:412-475, called at /repo/examples/cli/mod.rs:281-289) up to
`handle_write_snapshot`: what is to be written. -/
def arrowJob {D : Type} (w : World D) (bld : Build) (table : BalTable) (arrow : List (SnapRow D) → Bool)
    (scanMax processMax depth : Nat) (minV maxV : Option Int) (split : Option Split) (source : Str) (node : Files.Node)
    (outputIsDir : Bool) : Res (SnapJob (SnapRow D)) := do
  let paths ← Files.getMatchingFiles bld [source] node scanMax depth
  let inits ← selectSources w bld minV maxV processMax split (paths.map pathText)
  pure (snapshotJob w bld table arrow inits outputIsDir)

end S2.Cli
