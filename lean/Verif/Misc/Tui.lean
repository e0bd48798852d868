import Verif.Misc.Replay
/-!
# The terminal user interface (`get transist-events --tui`)

What the interface shows: the current event, the units and cameras on the map, the selection panels and the players, as data.  Layout,
drawing, colour theme, mouse drawing and the clock are left out, and with the theme the look-up `find_syntax_by_name("json")`
(/repo/examples/tui/mod.rs:205) whose `unwrap` panics if syntect's syntax set has no syntax of exactly that name; `x` and `y`, which the arrow keys change, are read nowhere.
-/
namespace S2.Tui

/-- The keys that do something (/repo/examples/tui/mod.rs:149-164): `q`/Esc, `n`/Right/space, anything else. -/
inductive Key
  | quit | next | other
  deriving DecidableEq, Repr

/-- `S2ProtoRatatuiApp` (/repo/examples/tui/mod.rs:63-77): `exit`, `current_event`, `sc2_event_iter`. -/
structure App where
  exit : Bool
  current : Option Item
  iter : MState

/-- `sc2_event_iter.next()`, with rounds enough for its loop (`C84_every_call_returns`). [/repo/examples/tui/mod.rs:87, 109, 157] -/
def call (bld : Build) (version : Nat) (m : MState) : Option (Res (Option Item) × MState) :=
  mnext bld version (m.trk.data.length + m.game.data.length + 3) m

/-- `tracker_loop` / `game_loop` of an event (/repo/examples/tui/mod.rs:91-102). -/
def loopOf : SEvent → Int
  | .tracker l _ => l
  | .game l _ _ _ => l

/-- The loop of `new` (/repo/examples/tui/mod.rs:87-110) in `n` rounds: events of loop 0 are passed over. -/
def start (bld : Build) (version : Nat) : Nat → MState → Option (Res (Option Item) × MState)
  | 0, _ => none
  | n + 1, m =>
    match call bld version m with
    | some (.ok (some it), m') => if loopOf it.event = 0 then start bld version n m' else some (.ok (some it), m')
    | r => r

/-- `S2ProtoRatatuiApp::new` (/repo/examples/tui/mod.rs:80-125).  The rounds suffice: `C144_returns`. -/
def App.new (bld : Build) (version : Nat) (m : MState) : Option (Res App) :=
  match start bld version (m.trk.data.length + m.game.data.length + 3) m with
  | some (.ok x, m') => some (.ok ⟨false, x, m'⟩)
  | some (.err e, _) => some (.err e)
  | some (.panic, _) => some .panic
  | none => none

/-- `handle_key_press` (/repo/examples/tui/mod.rs:149-164) -/
def App.press (bld : Build) (version : Nat) (a : App) : Key → Option (Res App)
  | .quit => some (.ok { a with exit := true })
  | .other => some (.ok a)
  | .next =>
    match call bld version a.iter with
    | some (.ok x, m') => some (.ok { a with current := x, iter := m' })
    | some (.err e, _) => some (.err e)
    | some (.panic, _) => some .panic
    | none => none

/-- The loop of `run` (/repo/examples/tui/mod.rs:127-147): `while !self.exit`, one key after the other (mouse and clock change nothing that is
modelled). -/
def App.presses (bld : Build) (version : Nat) : App → List Key → Option (Res App)
  | a, [] => some (.ok a)
  | a, k :: ks =>
    if a.exit then some (.ok a)
    else match a.press bld version k with
      | some (.ok a') => a'.presses bld version ks
      | r => r

/-- `ratatui_main` (/repo/examples/tui/mod.rs:38-59): what is on the screen after the keys. -/
def run (bld : Build) (version : Nat) (m : MState) (keys : List Key) : Option (Res App) :=
  match App.new bld version m with
  | some (.ok a) => a.presses bld version keys
  | r => r

/-- One line of a selection panel (/repo/examples/tui/mod.rs:429-438): name, tag index, ability of the last command. -/
structure Line where
  name : Str
  index : Int
  ability : Str
  deriving DecidableEq, Repr

/-- The line of a selected unit (/repo/examples/tui/mod.rs:424-439). -/
def lineOf (s : SState) (selected : Int) : Option Line :=
  (s.units (tagIndex selected)).map (fun u =>
    ⟨u.name, u.tagIndex, match u.cmd.abil with
      | some a => a.ability
      | none => []⟩)

/-- `selected_player_units` (/repo/examples/tui/mod.rs:415-447): the user that comes at `userIndex` when the `HashMap` of users is iterated over, `order`
being that iteration; group 10 (all eleven groups are always there, `SState.Wf`, so the index does not panic). -/
def selectedUnits (order : List (Int × UserState)) (s : SState) (userIndex : Nat) : List Line :=
  match order[userIndex]? with
  | some (_, u) => ((u.groups[activeGroup.toNat]?).getD []).filterMap (lineOf s)
  | none => []

/-- The two panels (/repo/examples/tui/mod.rs:197-198). -/
def panels (order : List (Int × UserState)) (s : SState) : List Line × List Line :=
  (selectedUnits order s 0, selectedUnits order s 1)

/-- `get_player_color` (/repo/examples/tui/mod.rs:449-457); `none` is white. -/
def playerColor (players : List PlayerDetails) (userId : Int) : Option Color :=
  (players.find? (fun p => p.workingSetSlotId == some (asU 8 userId))).map (·.color)

/-- The rectangles of `map_canvas` (/repo/examples/tui/mod.rs:402-411): user, camera position, colour. -/
def cameras (s : SState) (players : List PlayerDetails) : List (Int × (Int × Int) × Option Color) :=
  s.users.map (fun u => (u.1, u.2.camera, playerColor players u.1))

/-- `details_canvas` (/repo/examples/tui/mod.rs:459-488): the players with a slot, each with the colour of its lines. -/
def playerLines (players : List PlayerDetails) : List (PlayerDetails × Option Color) :=
  players.filterMap (fun p =>
    match p.workingSetSlotId with
    | some slot => some (p, playerColor players slot)
    | none => none)

end S2.Tui
