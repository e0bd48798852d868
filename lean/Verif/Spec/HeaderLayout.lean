import Verif.Misc.Replay
import Verif.Misc.QuickHeader
import Verif.Spec.DetailsLayout
/-!
# The published layout of the header of a replay

Written from the published description of the format (Blizzard's `s2protocol`), independently of the parser and of the types
extracted from it.
-/
namespace S2.Published

/-- A version. [specification] -/
structure Version where
  flags : Int
  major : Int
  minor : Int
  revision : Int
  build : Int
  baseBuild : Int
/-- A hash: bytes as numbers (no longer in use) and as text. [specification] -/
structure Hash where
  deprecated : Option (List Int)
  data : List UInt8
/-- A header. [specification] -/
structure Header where
  signature : List UInt8
  version : Version
  kind : Int
  elapsed : Int
  useScaledTime : Bool
  rootKey : Hash
  dataBuild : Int
  compatibility : Hash
  rootKeyIsDev : Bool

/-- [specification] -/
def version (v : Version) : List UInt8 := record [num v.flags, num v.major, num v.minor, num v.revision, num v.build, num v.baseBuild]
/-- [specification] -/
def md5 (h : Hash) : List UInt8 := record [maybe (array num) h.deprecated, text h.data]
/-- The members of a header with their numbers. [specification] -/
def headerMembers (h : Header) : List (Int × List UInt8) :=
  [(0, text h.signature), (1, version h.version), (2, num h.kind), (3, num h.elapsed), (4, truth h.useScaledTime), (5, md5 h.rootKey),
   (6, num h.dataBuild), (7, md5 h.compatibility), (8, truth h.rootKeyIsDev)]

/-- [specification] -/
def FitsVersion (v : Version) : Prop := U8 v.flags ∧ U8 v.major ∧ U8 v.minor ∧ U8 v.revision ∧ U32 v.build ∧ U32 v.baseBuild
/-- [specification] -/
def FitsHash (h : Hash) : Prop := Maybe (fun l => l.length < 2 ^ 63 ∧ ∀ x ∈ l, U8 x) h.deprecated ∧ h.data.length < 2 ^ 63
/-- The members are in the ranges of the description. [specification] -/
def HeaderFits (h : Header) : Prop :=
  h.signature.length < 2 ^ 63 ∧ FitsVersion h.version ∧ U8 h.kind ∧ U32 h.elapsed ∧ FitsHash h.rootKey ∧ U32 h.dataBuild ∧ FitsHash h.compatibility

/-- The version as the parsers hand it out: its members in the order of the description. [specification] -/
def Version.handedOut (v : Version) : Val := .struct [.int v.flags, .int v.major, .int v.minor, .int v.revision, .int v.build, .int v.baseBuild]
/-- The hash as the parser hands it out. [specification] -/
def Hash.handedOut (h : Hash) : Val :=
  .struct [match h.deprecated with
           | none => .none
           | some l => .some (.list (l.map .int)), .bytes h.data]
/-- The header as the parser hands it out. [specification] -/
def Header.handedOut (h : Header) : Val :=
  .struct [.bytes h.signature, h.version.handedOut, .int h.kind, .int h.elapsed, .bool h.useScaledTime, h.rootKey.handedOut, .int h.dataBuild,
    h.compatibility.handedOut, .bool h.rootKeyIsDev]

end S2.Published
