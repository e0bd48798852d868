import Verif.Spec.GameLayout
import Verif.Spec.InitLayout
/-!
# What is handed out for the events of the published layout

Some events are not handed out as they were written: empty texts and masks, masks that do not start at a byte, and the sequence numbers of
the command manager.
-/
namespace S2.Published

/-- A mask as it is handed out when it starts at this bit offset: an empty one is one zero byte, otherwise its bits are taken in groups of eight, which are
those of the number only at a byte boundary. [specification] -/
def heardMask (off : Nat) : SelectionMask → SelectionMask
  | .mask [] => .mask [0]
  | .mask (b :: m) => .mask (bitArr ((off + 11) % 8) (bits (8 * (b :: m).length) (bigEndian (b :: m)) ((off + 11) % 8)))
  | m => m

/-- A sequence number as it is handed out when its presence bit is at this offset: the presence bit is read as its first bit, its last bit is left out.
[specification] -/
def heardNumber (off : Nat) (x : Int) : Int := 1 + (bitsVal off (true :: (bits 32 (x - 1) ((off + 1) % 8)).take 31) : Nat)

/-- A game event as it is handed out when its number starts at this bit offset. [specification] -/
def heardGame (off : Nat) : GameEvt → GameEvt
  | .selectionDelta e => .selectionDelta { e with removeMask := heardMask ((off + 20) % 8) e.removeMask }
  | .controlGroupUpdate e => .controlGroupUpdate { e with mask := heardMask ((off + 14) % 8) e.mask }
  | .other (.triggerChatMessage s) => .other (.triggerChatMessage (noEmpty s))
  | .other (.commandManagerState st (some x)) => .other (.commandManagerState st (some (heardNumber ((off + 9) % 8) x)))
  | e => e

/-- The bit offset at which the number of an event starts: after the time and the user. [specification] -/
def startOf (delta : Int) : Nat := if delta < 2 ^ 22 then 5 else 7

/-- The command manager gives a sequence number. [specification] -/
def Numbered : GameEvt → Prop
  | .other (.commandManagerState _ (some _)) => True
  | _ => False

/-- An event that the reader can find the end of: a sequence number of the command manager only less than 2²² loops after the event before. [specification] -/
def Ends (p : Int × Int × GameEvt) : Prop := Numbered p.2.2 → p.1 < 2 ^ 22

/-- A game event with time and user as it is handed out. [specification] -/
def heardItem (p : Int × Int × GameEvt) : Int × Int × GameEvt := (p.1, p.2.1, heardGame (startOf p.1) p.2.2)

/-- A message as it is handed out: an empty text is one zero byte. [specification] -/
def heard (e : ChatEvt) : ChatEvt := { e with text := noEmpty e.text }

end S2.Published
