import Verif.Misc.GenText
/-!
# Which declarations the generator writes into its two modules (/repo/src/generator/proto_morphist.rs:147-303)

The description is `modules[0].decls`: an array of entries, each with a `fullname`, its own content (`α`), and possibly an
array `decls` of further entries.  Only three levels are ever looked at.

Simplifications: every entry has a `fullname` that is a string (for the outer level and inside `NNet.Replay.Tracker` a missing one
panics; at the middle level it is compared only).  The result is the list of calls of `gen_proto_code`, in order.  The texts the calls write are
`Verif/Misc/GenText.lean`; a panic inside a call is not part of this file.
-/
namespace S2.Generator
open S2

/-- An entry at the third level: `fullname` and content (/repo/src/generator/proto_morphist.rs:183-191). -/
structure Leaf (α : Type) where
  fullname : String
  body : α

/-- An entry at the second level, with its `decls` if it has them (/repo/src/generator/proto_morphist.rs:172-206). -/
structure Sub (α : Type) where
  fullname : String
  body : α
  decls : Option (List (Leaf α))

/-- An entry of `modules[0].decls` (/repo/src/generator/proto_morphist.rs:150-171). -/
structure Root (α : Type) where
  fullname : String
  body : α
  decls : Option (List (Sub α))

variable {α : Type}

/-- The loop over the `decls` of `NNet.Replay.Tracker` (/repo/src/generator/proto_morphist.rs:183-191). -/
def trackerSelected (ls : List (Leaf α)) : List (String × α) :=
  (ls.filter (fun l => "NNet.Replay.Tracker.S".toList.isPrefixOf l.fullname.toList || l.fullname == "NNet.Replay.Tracker.EEventId")).map
    (fun l => (l.fullname, l.body))

/-- One entry of the `decls` of `NNet.Replay` or `NNet.Game`: the header, what is in the tracker module (whose `decls` are
`expect`ed), one of eight names (/repo/src/generator/proto_morphist.rs:174-206). -/
def byteSubSelected (s : Sub α) : Res (List (String × α)) := do
  let header := if s.fullname = "NNet.Replay.SHeader" then [(s.fullname, s.body)] else []
  let tracker ←
    if s.fullname = "NNet.Replay.Tracker" then
      (match s.decls with
        | some ls => .ok (trackerSelected ls)
        | none => .panic)
    else .ok []
  let game :=
    if s.fullname ∈ ["NNet.Game.CPlayerDetailsArray", "NNet.Game.SDetails", "NNet.Game.SPlayerDetails", "NNet.Game.SThumbnail",
        "NNet.Game.EGameSpeed", "NNet.Game.EResultDetails", "NNet.Game.SToonNameDetails", "NNet.Game.SColor"]
    then [(s.fullname, s.body)] else []
  pure (header ++ tracker ++ game)

/-- The loop over the `decls` of `NNet.Replay` or `NNet.Game` (/repo/src/generator/proto_morphist.rs:172-206). -/
def byteSubsSelected : List (Sub α) → Res (List (String × α))
  | [] => .ok []
  | s :: rest => do
    let a ← byteSubSelected s
    let b ← byteSubsSelected rest
    pure (a ++ b)

/-- One entry of `modules[0].decls` (/repo/src/generator/proto_morphist.rs:156-206). -/
def byteRootSelected (r : Root α) : Res (List (String × α)) := do
  let plain :=
    (if r.fullname = "NNet.SVersion" then [(r.fullname, r.body)] else []) ++
    (if r.fullname = "NNet.SVarUint32" then [(r.fullname, r.body)] else []) ++
    (if r.fullname = "NNet.SMD5" then [(r.fullname, r.body)] else []) ++
    (if r.fullname = "NNet.EObserve" then [(r.fullname, r.body)] else [])
  let inner ←
    if r.fullname = "NNet.Replay" ∨ r.fullname = "NNet.Game" then
      (match r.decls with
        | some ss => byteSubsSelected ss
        | none => .panic)
    else .ok []
  pure (plain ++ inner)

/-- The calls of `gen_proto_code` by `gen_byte_aligned_mod`, in order (/repo/src/generator/proto_morphist.rs:147-210). -/
def bytesSelected : List (Root α) → Res (List (String × α))
  | [] => .ok []
  | r :: rest => do
    let a ← byteRootSelected r
    let b ← bytesSelected rest
    pure (a ++ b)

/-- The names of `modules[0].decls` that go into the bit-packed module besides the integers
(/repo/src/generator/proto_morphist.rs:234-257). -/
def bitRootNames : List String :=
  ["NNet.SVarUint32", "NNet.TUserId", "NNet.ELeaveReason", "NNet.CToonHandle", "NNet.CFilePath", "NNet.EObserve", "NNet.CUserName",
    "NNet.CClanTag", "NNet.CUserInitialDataArray", "NNet.EReconnectStatus", "NNet.TUserCount", "NNet.CCommanderHandle",
    "NNet.CMountHandle", "NNet.CSkinHandle", "NNet.CHeroHandle", "NNet.TRacePreference", "NNet.CArtifactHandle", "NNet.TRaceCount",
    "NNet.TRaceId", "NNet.SUserInitialData", "NNet.CAllowedObserveTypes", "NNet.CAllowedRaces", "NNet.CCacheHandle",
    "NNet.TTeamPreference"]

/-- An entry of the `decls` of `NNet.Game`: all but the senders; and after `STriggerDialogControlEvent` its member `m_eventData`,
which `eventData` finds in the content (`none`: there is no array of fields, which panics)
(/repo/src/generator/proto_morphist.rs:284-301). -/
def bitGameSelected (eventData : α → Option (List α)) (s : Sub α) : Res (List (String × α)) :=
  if s.fullname = "NNet.Game.ESenders" then .ok []
  else if s.fullname = "NNet.Game.STriggerDialogControlEvent" then
    match eventData s.body with
    | some ms => .ok ((s.fullname, s.body) :: ms.map (fun m => ("m_eventData", m)))
    | none => .panic
  else .ok [(s.fullname, s.body)]

/-- The loop over the `decls` of `NNet.Game` (/repo/src/generator/proto_morphist.rs:280-301). -/
def bitGamesSelected (eventData : α → Option (List α)) : List (Sub α) → Res (List (String × α))
  | [] => .ok []
  | s :: rest => do
    let a ← bitGameSelected eventData s
    let b ← bitGamesSelected eventData rest
    pure (a ++ b)

/-- One entry of `modules[0].decls` (/repo/src/generator/proto_morphist.rs:222-301). -/
def bitRootSelected (eventData : α → Option (List α)) (r : Root α) : Res (List (String × α)) := do
  let here := [(r.fullname, r.body)]
  let ints :=
    (if "NNet.uint".toList.isPrefixOf r.fullname.toList then here else []) ++
    (if "NNet.int".toList.isPrefixOf r.fullname.toList then here else []) ++
    (if r.fullname ∈ bitRootNames then here else [])
  let replay ←
    if r.fullname = "NNet.Replay" then
      (match r.decls with
        | some ss => .ok ((ss.filter (fun s => s.fullname == "NNet.Replay.SGameUserId" || s.fullname == "NNet.Replay.SInitData")).map
            (fun s => (s.fullname, s.body)))
        | none => .panic)
    else .ok []
  let more := (if r.fullname = "NNet.SVersion" then here else []) ++ (if r.fullname = "NNet.SMD5" then here else [])
  let game ←
    if r.fullname = "NNet.Game" then
      (match r.decls with
        | some ss => bitGamesSelected eventData ss
        | none => .panic)
    else .ok []
  pure (ints ++ replay ++ more ++ game)

/-- The calls of `gen_proto_code` by `gen_bit_packed_mod`, in order (/repo/src/generator/proto_morphist.rs:213-303). -/
def bitsSelected (eventData : α → Option (List α)) : List (Root α) → Res (List (String × α))
  | [] => .ok []
  | r :: rest => do
    let a ← bitRootSelected eventData r
    let b ← bitsSelected eventData rest
    pure (a ++ b)

/-- The text of a list of declarations, one `gen_proto_code` after the other (/repo/src/generator/proto_morphist.rs:379-545). -/
def writeAll (nm : Naming) (proto : Txt) : List (String × VDecl) → Option Txt
  | [] => some []
  | (n, d) :: rest => do
    let t ← declText nm proto n d
    let ts ← writeAll nm proto rest
    some (t ++ ts)

end S2.Generator
