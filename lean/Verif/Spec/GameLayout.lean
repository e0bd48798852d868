import Verif.Spec.BitSpec
import Verif.Spec.BitPackedSpec
import Verif.Spec.TrackerLayout
/-!
# The published layout of the game events and chat messages

Written from the published description of the format (Blizzard's `s2protocol`), independently of the
parser and of the types extracted from it: which number announces which event, which members an event
has in which order, and how many bits each of them takes.
-/
namespace S2.Published

/-- Bits to be written from a bit offset within a byte (the order of the bits of a number depends on it). [specification] -/
abbrev Wire := Nat → List Bool

/-- One thing after the other. [specification] -/
def seq : List Wire → Wire
  | [], _ => []
  | w :: ws, off => w off ++ seq ws ((off + (w off).length) % 8)

/-- A number in `n` bits. [specification] -/
def bits (n : Nat) (x : Int) : Wire := fun off => encBits off n x.toNat
/-- A number of `n` bits with sign: stored above its least value. [specification] -/
def signed (n : Nat) (x : Int) : Wire := bits n (x + 2 ^ (n - 1))
/-- One bit. [specification] -/
def flag (b : Bool) : Wire := fun _ => [b]
/-- Something that may be absent: a bit, then the thing. [specification] -/
def opt {α : Type} (f : α → Wire) : Option α → Wire
  | none => flag false
  | some a => seq [flag true, f a]
/-- How many, in `n` bits, then one after the other. [specification] -/
def many {α : Type} (n : Nat) (f : α → Wire) (xs : List α) : Wire := seq (bits n xs.length :: xs.map f)
/-- Text: its length in bytes in `n` bits, nothing up to the next byte, the bytes. [specification] -/
def chars (n : Nat) (s : Str) : Wire :=
  seq [bits n s.length, fun off => List.replicate (padLen off) false, fun _ => bytesBits s]

/-- A point in the world. [specification] -/
def coord (c : MapCoord) : Wire := seq [bits 20 c.x, bits 20 c.y, signed 32 c.z]
/-- A point on the screen. [specification] -/
def uiCoord (c : UiCoord) : Wire := seq [bits 11 c.x, bits 11 c.y]
/-- An ability. [specification] -/
def ability (a : CmdAbil) : Wire := seq [bits 16 a.abilLink, bits 5 a.abilCmdIndex, opt (bits 8) a.abilCmdData]
/-- A unit that is the target of a command. [specification] -/
def targetUnit (u : CmdTargetUnit) : Wire :=
  seq [bits 16 u.targetUnitFlags, bits 8 u.timer, bits 32 u.tag, bits 16 u.snapshotUnitLink, opt (bits 4) u.snapshotControlPlayerId,
    opt (bits 4) u.snapshotUpkeepPlayerId, coord u.snapshotPoint]
/-- The target of a command. [specification] -/
def cmdData : CmdData → Wire
  | .none => bits 2 0
  | .targetPoint c => seq [bits 2 1, coord c]
  | .targetUnit u => seq [bits 2 2, targetUnit u]
  | .data x => seq [bits 2 3, bits 32 x]
/-- The number whose bytes these are, the first byte being the highest. [specification] -/
def bigEndian (bs : List UInt8) : Nat := bs.foldl (fun a b => 256 * a + b.toNat) 0
/-- What is taken out of a selection: nothing, a bit per unit (how many, then a number of so many bits), or indices. [specification] -/
def mask : SelectionMask → Wire
  | .none => bits 2 0
  | .mask m => seq [bits 2 1, seq [bits 9 (8 * m.length), bits (8 * m.length) (bigEndian m)]]
  | .oneIndices l => seq [bits 2 2, many 9 (bits 9) l]
  | .zeroIndices l => seq [bits 2 3, many 9 (bits 9) l]
/-- A group of units added to a selection. [specification] -/
def subgroup (g : SelectionSubgroup) : Wire :=
  seq [bits 16 g.unitLink, bits 8 g.subgroupPriority, bits 8 g.intraSubgroupPriority, bits 9 g.count]

/-- The numbers of the kinds of control group updates. [specification] -/
def updateCode : GroupUpdate → Int
  | .set => 0 | .append => 1 | .recall => 2 | .clear => 3 | .setAndSteal => 4 | .appendAndSteal => 5
/-- The numbers of the reasons to leave. [specification] -/
def leaveCode : LeaveReason → Int
  | .userLeft => 0 | .userDropped => 1 | .userBanned => 2 | .userVictory => 3 | .userDefeat => 4 | .userTied => 5 | .userDesynced => 6
  | .userOutOfTime => 7 | .weWereUnresponsive => 8 | .weContinuedAlone => 9 | .replayDesynced => 10 | .userTimeout => 11
  | .userDisconnected => 12 | .unrecoverable => 13 | .userCatchupDesynced => 14 | .takeCommandDropped => 15
/-- The numbers of the states of the command manager. [specification] -/
def managerCode : CommandManagerState → Int
  | .fireDone => 0 | .fireOnce => 1 | .fireMany => 2

/-- The number of an event and its members; `flags` is how many bits the flags of a command take. [specification] -/
def gameBody (flags : Nat) : GameEvt → Int × Wire
  | .cameraSave which x y => (14, seq [bits 3 which, seq [bits 16 x, bits 16 y]])
  | .cmd e => (27, seq [bits flags e.cmdFlags, opt ability e.abil, cmdData e.data, bits 32 (e.sequence - 1), opt (bits 32) e.otherUnit,
      opt (bits 32) e.unitGroup])
  | .selectionDelta e => (28, seq [bits 4 e.controlGroupId,
      seq [bits 9 e.subgroupIndex, mask e.removeMask, many 9 subgroup e.addSubgroups, many 9 (bits 32) e.addUnitTags]])
  | .controlGroupUpdate e => (29, seq [bits 4 e.controlGroupIndex, bits 3 (updateCode e.update), mask e.mask])
  | .cameraUpdate target v => (49, seq [opt (fun p => seq [bits 16 p.1, bits 16 p.2]) target, opt (bits 16) v.distance, opt (bits 16) v.pitch,
      opt (bits 16) v.yaw, opt (signed 8) v.reason, flag v.follow])
  | .cmdUpdateTargetPoint c => (104, seq [coord c])
  | .cmdUpdateTargetUnit u => (105, seq [targetUnit u])
  | .other (.dropUser user reason) => (1, seq [bits 4 user, bits 4 (leaveCode reason)])
  | .other (.selectionSyncCheck g d) => (30, seq [bits 4 g, seq [bits 9 d.count, bits 9 d.subgroupCount, bits 9 d.activeSubgroupIndex,
      bits 32 d.unitTagsChecksum, bits 32 d.subgroupIndicesChecksum, bits 32 d.subgroupsChecksum]])
  | .other (.triggerChatMessage s) => (32, seq [chars 11 s])
  | .other (.unitClick t) => (39, seq [bits 32 t])
  | .other (.unitHighlight t f) => (40, seq [bits 32 t, bits 8 f])
  | .other (.triggerReplySelected c r) => (41, seq [signed 32 c, signed 32 r])
  | .other (.triggerMouseClicked b down ui world f) => (58, seq [bits 32 b, flag down, uiCoord ui, coord world, signed 8 f])
  | .other (.triggerMouseMoved ui world f) => (59, seq [uiCoord ui, coord world, signed 8 f])
  | .other (.triggerHotkeyPressed h down) => (61, seq [bits 32 h, flag down])
  | .other (.triggerTargetModeUpdate link _ i st) => (62, seq [bits 16 link, bits 5 i, signed 8 st])
  | .other (.triggerKeyPressed k f) => (66, seq [signed 8 k, signed 8 f])
  | .other (.triggerMouseWheel spin f) => (92, seq [signed 16 spin, signed 8 f])
  | .other (.triggerButtonPressed b) => (95, seq [bits 16 b])
  | .other (.commandManagerState st sq) => (103, seq [bits 2 (managerCode st), opt (fun x => bits 32 (x - 1)) sq])

/-- The time since the event before: the size class in two bits, then 6, 14, 22 or 32 bits. [specification] -/
def gameDelta (d : Int) : Wire :=
  if d < 2 ^ 6 then seq [bits 2 0, bits 6 d] else if d < 2 ^ 14 then seq [bits 2 1, bits 14 d]
  else if d < 2 ^ 22 then seq [bits 2 2, bits 22 d] else seq [bits 2 3, bits 32 d]

/-- Bits as bytes: the first bit is the lowest of its byte, missing bits of the last byte are 0. [specification] -/
def pack : List Bool → List UInt8
  | b0 :: b1 :: b2 :: b3 :: b4 :: b5 :: b6 :: b7 :: rest => UInt8.ofNat (lsbVal [b0, b1, b2, b3, b4, b5, b6, b7]) :: pack rest
  | [] => []
  | last => [UInt8.ofNat (lsbVal last)]

/-- How many bits the flags of a command take in a version of the protocol. [specification] -/
def cmdFlagBits (version : Nat) : Nat := if version ≤ 75689 then 26 else 27

/-- The bytes of a game event: the time, the user, the number of the event in seven bits, its members. [specification] -/
def gameItem (version : Nat) (p : Int × Int × GameEvt) : List UInt8 :=
  let e := gameBody (cmdFlagBits version) p.2.2
  pack (seq [gameDelta p.1, seq [bits 5 p.2.1], seq [bits 7 e.1, e.2]] 0)

/-- The bytes of a chat message: the time, the user, the number 0 in four bits, who gets it, the text. [specification] -/
def chatItem (p : Int × Int × ChatEvt) : List UInt8 :=
  pack (seq [gameDelta p.1, seq [bits 5 p.2.1], seq [bits 4 0, seq [bits 3 p.2.2.recipient, chars 11 p.2.2.text]]] 0)

/-- A number of `n` bits without sign. [specification] -/
def U (n : Nat) (x : Int) : Prop := 0 ≤ x ∧ x < 2 ^ n
/-- A number of `n` bits with sign. [specification] -/
def I (n : Nat) (x : Int) : Prop := -2 ^ (n - 1) ≤ x ∧ x < 2 ^ (n - 1)

/-- [specification] -/
def FitsCoord (c : MapCoord) : Prop := U 20 c.x ∧ U 20 c.y ∧ I 32 c.z
/-- [specification] -/
def FitsUi (c : UiCoord) : Prop := U 11 c.x ∧ U 11 c.y
/-- The name of the ability is not in the file. [specification] -/
def FitsAbility (a : CmdAbil) : Prop := U 16 a.abilLink ∧ a.ability = [] ∧ U 5 a.abilCmdIndex ∧ Maybe (U 8) a.abilCmdData
/-- [specification] -/
def FitsUnit (u : CmdTargetUnit) : Prop := U 16 u.targetUnitFlags ∧ U 8 u.timer ∧ U 32 u.tag ∧ U 16 u.snapshotUnitLink ∧
  Maybe (U 4) u.snapshotControlPlayerId ∧ Maybe (U 4) u.snapshotUpkeepPlayerId ∧ FitsCoord u.snapshotPoint
/-- [specification] -/
def FitsData : CmdData → Prop
  | .none => True
  | .targetPoint c => FitsCoord c
  | .targetUnit u => FitsUnit u
  | .data x => U 32 x
/-- [specification] -/
def FitsMask : SelectionMask → Prop
  | .none => True
  | .mask m => 8 * m.length < 2 ^ 9
  | .oneIndices l | .zeroIndices l => l.length < 2 ^ 9 ∧ ∀ x ∈ l, U 9 x
/-- [specification] -/
def FitsSubgroup (g : SelectionSubgroup) : Prop := U 16 g.unitLink ∧ U 8 g.subgroupPriority ∧ U 8 g.intraSubgroupPriority ∧ U 9 g.count
/-- Text that the format can carry. [specification] -/
def FitsText (n : Nat) (s : Str) : Prop := utf8Ok s = true ∧ s.length < 2 ^ n

/-- The members of the event are in the ranges of the description. [specification] -/
def GameFits (flags : Nat) : GameEvt → Prop
  | .cameraSave which x y => U 3 which ∧ U 16 x ∧ U 16 y
  | .cmd e => U flags e.cmdFlags ∧ Maybe FitsAbility e.abil ∧ FitsData e.data ∧ U 32 (e.sequence - 1) ∧ Maybe (U 32) e.otherUnit ∧ Maybe (U 32) e.unitGroup
  | .selectionDelta e => U 4 e.controlGroupId ∧ U 9 e.subgroupIndex ∧ FitsMask e.removeMask ∧
      (e.addSubgroups.length < 2 ^ 9 ∧ ∀ g ∈ e.addSubgroups, FitsSubgroup g) ∧ (e.addUnitTags.length < 2 ^ 9 ∧ ∀ t ∈ e.addUnitTags, U 32 t)
  | .controlGroupUpdate e => U 4 e.controlGroupIndex ∧ FitsMask e.mask
  | .cameraUpdate target v => Maybe (fun p => U 16 p.1 ∧ U 16 p.2) target ∧ Maybe (U 16) v.distance ∧ Maybe (U 16) v.pitch ∧ Maybe (U 16) v.yaw ∧
      Maybe (I 8) v.reason
  | .cmdUpdateTargetPoint c => FitsCoord c
  | .cmdUpdateTargetUnit u => FitsUnit u
  | .other (.dropUser user _) => U 4 user
  | .other (.selectionSyncCheck g d) => U 4 g ∧ U 9 d.count ∧ U 9 d.subgroupCount ∧ U 9 d.activeSubgroupIndex ∧ U 32 d.unitTagsChecksum ∧
      U 32 d.subgroupIndicesChecksum ∧ U 32 d.subgroupsChecksum
  | .other (.triggerChatMessage s) => FitsText 11 s
  | .other (.unitClick t) => U 32 t
  | .other (.unitHighlight t f) => U 32 t ∧ U 8 f
  | .other (.triggerReplySelected c r) => I 32 c ∧ I 32 r
  | .other (.triggerMouseClicked b _ ui world f) => U 32 b ∧ FitsUi ui ∧ FitsCoord world ∧ I 8 f
  | .other (.triggerMouseMoved ui world f) => FitsUi ui ∧ FitsCoord world ∧ I 8 f
  | .other (.triggerHotkeyPressed h _) => U 32 h
  | .other (.triggerTargetModeUpdate link ab i st) => U 16 link ∧ ab = [] ∧ U 5 i ∧ I 8 st
  | .other (.triggerKeyPressed k f) => I 8 k ∧ I 8 f
  | .other (.triggerMouseWheel spin f) => I 16 spin ∧ I 8 f
  | .other (.triggerButtonPressed b) => U 16 b
  | .other (.commandManagerState _ sq) => Maybe (fun x => U 32 (x - 1)) sq

/-- A mask, if it is one, has eight bits. [specification] -/
def PlainMask : SelectionMask → Prop
  | .mask m => m.length = 1
  | _ => True
/-- A text is not empty, a mask has eight bits, and the command manager has no sequence number. [specification] -/
def Plain : GameEvt → Prop
  | .selectionDelta e => PlainMask e.removeMask
  | .controlGroupUpdate e => PlainMask e.mask
  | .other (.triggerChatMessage s) => s ≠ []
  | .other (.commandManagerState _ sq) => sq = none
  | _ => True

/-- Game event of a user at a time. [specification] -/
def GameItemFits (version : Nat) (p : Int × Int × GameEvt) : Prop := U32 p.1 ∧ U 5 p.2.1 ∧ GameFits (cmdFlagBits version) p.2.2
/-- Chat message of a user at a time. [specification] -/
def ChatItemFits (p : Int × Int × ChatEvt) : Prop := U32 p.1 ∧ U 5 p.2.1 ∧ (0 ≤ p.2.2.recipient ∧ p.2.2.recipient ≤ 4) ∧ FitsText 11 p.2.2.text

end S2.Published
