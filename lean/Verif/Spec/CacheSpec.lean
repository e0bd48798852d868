import Verif.Text
/-!
# File layouts of the cache files, written independently of the readers
-/
namespace S2.CacheSpec

open S2

/-- Little-endian bytes of an integer, `k` of them (two's complement for negative numbers). -/
def leBytes : Nat → Int → List UInt8
  | 0, _ => []
  | k + 1, x => UInt8.ofNat (x % 256).toNat :: leBytes k (x / 256)

def inI32 (x : Int) : Prop := -(2 ^ 31) ≤ x ∧ x < 2 ^ 31

/-- A zero-terminated string: no zero byte inside. -/
def NoZero (s : List UInt8) : Prop := ∀ b ∈ s, b ≠ 0

/-- What a MapInfo file says. -/
structure MapFile where
  version : Int
  width : Int
  height : Int
  s1 : List UInt8
  s2 : List UInt8
  s3 : List UInt8
  s4 : List UInt8
  left : Int
  bottom : Int
  right : Int
  top : Int

/-- Layout of the part of a MapInfo file that is read: magic, version, (8 bytes when the version
is above 24), width, height, 8 bytes, zero padding, two zero-terminated strings (the first one not
empty), 5 bytes, two more strings, and the four bounds. -/
def MapLayout (f : MapFile) (bytes : List UInt8) : Prop :=
  ∃ extra u8 zeros u5 : List UInt8,
    bytes = str "IpaM" ++ (leBytes 4 f.version ++ (extra ++ (leBytes 4 f.width ++ (leBytes 4 f.height ++
      (u8 ++ (zeros ++ (f.s1 ++ ([0] ++ (f.s2 ++ ([0] ++ (u5 ++ (f.s3 ++ ([0] ++ (f.s4 ++ ([0] ++
      (leBytes 4 f.left ++ (leBytes 4 f.bottom ++ (leBytes 4 f.right ++ leBytes 4 f.top)))))))))))))))))) ∧
    extra.length = (if f.version > 24 then 8 else 0) ∧ u8.length = 8 ∧ (∀ b ∈ zeros, b = 0) ∧
    f.s1 ≠ [] ∧ NoZero f.s1 ∧ NoZero f.s2 ∧ u5.length = 5 ∧ NoZero f.s3 ∧ NoZero f.s4 ∧
    inI32 f.version ∧ inI32 f.width ∧ inI32 f.height ∧ inI32 f.left ∧ inI32 f.bottom ∧
    inI32 f.right ∧ inI32 f.top

/-- The bounds the reader demands. -/
def MapOk (f : MapFile) : Prop :=
  f.left < f.right ∧ f.right ≤ f.width ∧ f.width ≤ 256 ∧
  f.bottom < f.top ∧ f.top ≤ f.height ∧ f.height ≤ 256

/-- Layout of a t3HeightMap file: magic, version 0x65, dimensions, 16 bytes, then one six-byte
record per terrain point. -/
def HeightLayout (w h : Int) (cells : List (List UInt8)) (bytes : List UInt8) : Prop :=
  ∃ u16 : List UInt8,
    bytes = str "HMAP" ++ (leBytes 4 0x65 ++ (leBytes 4 w ++ (leBytes 4 h ++ (u16 ++ cells.flatten)))) ∧
    u16.length = 16 ∧ ∀ c ∈ cells, c.length = 6

/-- One attribute of a document header: `u16` length, name, "SUne", `u16` length, value. -/
def fieldBytes (f : List UInt8 × List UInt8) : List UInt8 :=
  leBytes 2 f.1.length ++ (f.1 ++ (str "SUne" ++ (leBytes 2 f.2.length ++ f.2)))

/-- Layout of a document header up to and including the field count. -/
def DocPrefix (x1 y1 e1 e2 : Int) (count : Nat) (bytes : List UInt8) : Prop :=
  ∃ a b c d e : List UInt8,
    bytes = str "H2CS" ++ (a ++ (b ++ (c ++ (leBytes 4 x1 ++ (leBytes 4 y1 ++ (d ++ (leBytes 4 e1 ++
      (leBytes 4 e2 ++ (e ++ (str "bnet:Void (Mod)/0.0/999,file:Mods/Void.SC2Mod" ++ ([0] ++
      leBytes 2 count))))))))))) ∧
    a.length = 4 ∧ b.length = 4 ∧ c.length = 4 ∧ d.length = 4 ∧ e.length = 12 ∧
    inI32 x1 ∧ inI32 y1 ∧ inI32 e1 ∧ inI32 e2 ∧ count < 2 ^ 16

/-- Layout of the attributes after the prefix: two zero bytes and the attributes. -/
def DocFields (fields : List (List UInt8 × List UInt8)) (bytes : List UInt8) : Prop :=
  bytes = [0, 0] ++ (fields.map fieldBytes).flatten ∧
    ∀ f ∈ fields, f.1.length < 2 ^ 16 ∧ f.2.length < 2 ^ 16

/-- The value of the last attribute with that name, or empty. -/
def lastValue (name : List UInt8) (fields : List (List UInt8 × List UInt8)) : List UInt8 :=
  (((fields.filter (fun f => f.1 == name)).map (·.2)).getLast?).getD []

end S2.CacheSpec
