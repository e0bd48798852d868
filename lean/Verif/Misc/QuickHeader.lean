import Verif.Schema.ByteAligned
import Verif.Gen.P87702ByteAligned
/-! # `ProtocolHeader::parse`: signature and version from the start of the header -/
namespace S2

/-- `ProtocolHeader::parse_m_signature` (/repo/src/protocol_version_decoder.rs:44-48): `tag(b"\x00")`, then a blob. -/
def quickSignature (bld : Build) (input : List UInt8) : Res (List UInt8 × List UInt8) := do
  let (tail, _) ← tagByte 0x00 input
  taggedBlob bld tail

/-- `ProtocolHeader::parse` (/repo/src/protocol_version_decoder.rs:26-41): the struct tag, the byte `0x12`, the signature, the byte
`0x02`, a `SVersion`. -/
def quickHeader (bld : Build) (input : List UInt8) : Res (List UInt8 × (List UInt8 × Val)) := do
  let (tail, _) ← tagByte STRUCT_TAG input
  let (tail, _) ← tagByte 0x12 tail
  let (tail, sig) ← quickSignature bld tail
  let (tail, _) ← tagByte 0x02 tail
  let (tail, version) ← vparse bld P87702.ByteAligned.SVersion tail
  pure (tail, (sig, version))

end S2
