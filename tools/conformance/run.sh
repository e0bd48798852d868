#!/bin/sh
# Runs the executable model (interpreted, outside the proofs) on the four replays shipped in /repo.
# usage: tools/conformance/run.sh     needs a built /verif/lean
set -e
mkdir -p /tmp/conf; i=0
for f in /repo/assets/*.SC2Replay /repo/tests/*.SC2Replay; do i=$((i+1)); python3 "$(dirname "$0")/mpq.py" "$f" /tmp/conf/out$i >/dev/null; done
cat > /tmp/conf/Run.lean <<'LEAN'
import Verif
open S2
def rd (p : String) : IO (List UInt8) := do
  let b ← IO.FS.readBinFile p
  return b.toList
partial def loop {σ α β} (step : σ → Res (σ × α)) (conv : α → Res β) (empty : σ → Bool) (kind : β → String) (info : σ → String)
   (s : σ) (n ok skip : Nat) (ks : List (String × Nat)) : IO Unit := do
  match step s with
  | .err e => IO.println s!"  parse error after {n} events: {repr e} at {info s}"
  | .panic => IO.println s!"  PANIC after {n} at {info s}"
  | .ok (s', a) =>
    let (ok, skip, ks) := match conv a with
      | .ok b => let k := kind b
                 (ok+1, skip, (match ks.find? (·.1 == k) with | some (_, c) => ks.map (fun x => if x.1 == k then (k, c+1) else x) | none => (k,1)::ks))
      | _ => (ok, skip+1, ks)
    if empty s' then IO.println s!"  end of data after {n+1} events: {ok} converted, {skip} skipped; {ks}"
    else loop step conv empty kind info s' (n+1) ok skip ks
def word (s : String) : String := ((s.replace "S2." "").splitOn " ").headD "" |>.splitOn "\n" |>.headD ""
def one (d : String) : IO Unit := do
  IO.println d
  let user ← rd (d ++ "/user")
  let det ← rd (d ++ "/replay.details")
  let ini ← rd (d ++ "/replay.initData")
  let a : Archive := ⟨some user, fun n => if n = "replay.details" then .ok det else if n = "replay.initData" then .ok ini else .err .eof⟩
  match checkedBuild .debug a with
  | .ok b => IO.println s!"  build {b}"
  | _ => IO.println "  header FAIL"
  let s8 := fun (l : Str) => String.fromUTF8! ⟨l.toArray⟩
  match readDetailsOf .debug a with
  | .ok dd => IO.println s!"  title {s8 dd.title}, time {dd.timeUtc} players {dd.playerList.map (fun p => (s8 p.name, s8 p.race, repr p.result))}"
  | .err e => IO.println s!"  details ERR {repr e}"
  | .panic => IO.println "  details PANIC"
  match readInitOf .debug a with
  | .ok (l, v) => IO.println s!"  init v{v} users {l.users.map (fun u => s8 u.name)}"
  | .err e => IO.println s!"  init ERR {repr e}"
  | .panic => IO.println "  init PANIC"
  let b := match checkedBuild .debug a with | .ok b => b | _ => 0
  let msg ← rd (d ++ "/replay.message.events")
  loop (parseTriplet .debug P87702.BitPacked.GameEMessageId) (convTriplet convMessage) (fun c => c.bytes.isEmpty) (fun x => word (reprStr x.2.2)) (fun c => s!"{c.bytes.length} left {c.off}") ⟨msg, 0⟩ 0 0 0 []
  let ge ← rd (d ++ "/replay.game.events")
  loop (parseTriplet .debug (dispatch b).gameTy) (convTriplet convGame) (fun c => c.bytes.isEmpty) (fun x => word (reprStr x.2.2)) (fun c => s!"{c.bytes.length} left {c.off}") ⟨ge, 0⟩ 0 0 0 []
  let te ← rd (d ++ "/replay.tracker.events")
  loop (parsePair .debug) convPair List.isEmpty (fun x => word (reprStr x.2)) (fun c => s!"{c.length} left") te 0 0 0 []
def main : IO Unit := do
  for d in ["4","1","2","3"] do one ("/tmp/conf/out" ++ d)
LEAN
cat > /tmp/conf/Run2.lean <<'LEAN'
import Verif
open S2
def rd (p : String) : IO (List UInt8) := do
  let b ← IO.FS.readBinFile p
  return b.toList
def word (s : String) : String := ((s.replace "S2." "").splitOn " ").headD "" |>.splitOn "\n" |>.headD ""
def hintKind : Hint → String
 | .none => "None" | .abilities .. => "Abilities" | .targetPoints .. => "TargetPoints" | .targetUnits .. => "TargetUnits" | _ => "other"
structure Cnt where
  items : Nat := 0
  stats : Nat := 0
  upg : Nat := 0
  born : Nat := 0
  died : Nat := 0
  pts : Nat := 0
  units : Nat := 0
  named : Nat := 0
  desc : Nat := 0
  last : Int := 0
  deriving Repr
def cnt (c : Cnt) (it : Item) : Cnt :=
  let l := match it.event with | .tracker l _ => l | .game l _ _ _ => l
  { items := c.items+1, stats := c.stats + (statsRowOf 1 it).toList.length, upg := c.upg + (upgradeRowOf 1 it).toList.length, born := c.born + (bornRowOf 1 it).toList.length, died := c.died + (diedRowOf 1 it).toList.length, pts := c.pts + (cmdPointRowsOf 1 it).length, units := c.units + (cmdUnitRowsOf 1 it).length, named := c.named + ((cmdUnitRowsOf 1 it).filter (fun r => r.targetUnitName ≠ [])).length, desc := c.desc + (if l < c.last then 1 else 0), last := l }
partial def go (v : Nat) (m : MState) (c : Cnt) : IO Unit := do
  match mnext .debug v 1000000 m with
  | some (.ok none, _) => IO.println s!"  end: {repr c}"
  | some (.ok (some it), m') => go v m' (cnt c it)
  | some (.err e, _) => IO.println s!"  ERR {repr e} {repr c}"
  | some (.panic, _) => IO.println s!"  PANIC {repr c}"
  | none => IO.println s!"  fuel"
def one (d : String) : IO Unit := do
  IO.println d
  let user ← rd (d ++ "/user")
  let det ← rd (d ++ "/replay.details")
  let ini ← rd (d ++ "/replay.initData")
  let te ← rd (d ++ "/replay.tracker.events")
  let ge ← rd (d ++ "/replay.game.events")
  let a : Archive := ⟨some user, fun n => if n = "replay.details" then .ok det else if n = "replay.initData" then .ok ini else if n = "replay.tracker.events" then .ok te else if n = "replay.game.events" then .ok ge else .err .eof⟩
  let w : World Unit := ⟨fun _ => .ok [], fun _ => .ok a, fun _ => [], fun _ _ => some (), ()⟩
  match InitFile.read w .debug [] 1 with
  | .ok i =>
    match openIterator w .debug i [] none with
    | .ok m => IO.println s!"  users {m.sc2.users.map (fun u => u.1)}"; go i.version.toNat m {}
    | _ => IO.println "open FAIL"
  | _ => IO.println "init FAIL"
def main : IO Unit := do
  for d in ["4","1"] do one ("/tmp/conf/out" ++ d)
LEAN
cd /verif/lean && lake env lean --run /tmp/conf/Run.lean && lake env lean --run /tmp/conf/Run2.lean
