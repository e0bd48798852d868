import Verif.Misc.GenDecls
import Verif.Misc.GenText
/-!
# The code that the generator writes for the bit-packed module: its text and what it does

The generator pushes pieces of text.  Here the pieces are statements (`Stmt`), functions (`Fn`) and items (`Code`), with two
readings: `text`, the Rust text that is written, and `run`, what that text does when it is compiled.  The statements are those that the generator can write, one
constructor for each piece; the variables are looked up by name, a name that is not bound, a variable of the wrong type or an assignment to a variable that is not
`mut` is `none` (the text does not compile).

Simplifications.
* Names are converted by parameters (`Naming`), as in `Verif/Misc/GenText.lean`.
* White space is not kept exactly: the indentation of pieces is one blank or none.
* `struct X { value }` is identified with its content, as in `Verif/Schema/BitPacked.lean`; a variant is identified by the tag of its arm.
* `nom::multi::count(p, n)(tail)` is read as in nom 7 (see `Verif/Misc/GenDecls.lean`).
-/
namespace S2.Generator
open S2

/-! ## Descriptions with names -/

mutual
/-- `type_info` of a member, an element or a variant (/repo/src/generator/decoder_type.rs:700-707, 1086-1092). -/
inductive TDesc
  | named (n : String) (d : TDecl)
  | bool
  | null
  | fourcc
  | int (b : Bounds)
  | blob (b : Bounds)
  | string (b : Bounds)
  | ascii (b : Bounds)
  | bitArray (b : Bounds)
  | array (b : Bounds) (elem : TDesc)
  | dynArray (b : Bounds) (elem : TDesc)
  | optional (t : TDesc)
  | choice (vs : TVariants)
  | other (kind : String)
/-- A declaration (/repo/src/generator/proto_morphist.rs:379-545). -/
inductive TDecl
  | struct (fs : TMembers)
  | choice (vs : TVariants)
  | enum (vs : TValues)
  | int (b : Bounds)
  | bitArray (b : Bounds)
  | user (n : String) (d : TDecl)
  | blob (b : Bounds)
  | string (b : Bounds)
  | array (b : Bounds) (elem : TDesc)
/-- `fields` of a `StructType` (/repo/src/generator/decoder_type.rs:698-715). -/
inductive TMembers
  | nil
  | const (rest : TMembers)
  | member (name : String) (t : TDesc) (rest : TMembers)
/-- `fields` of a `ChoiceType` (/repo/src/generator/decoder_type.rs:1081-1107). -/
inductive TVariants
  | nil
  | cons (tag : Int) (name : String) (t : TDesc) (rest : TVariants)
/-- `fields` of an `EnumType`; `struct` is what the table of tags has for the value (/repo/src/generator/decoder_type.rs:1651-1690). -/
inductive TValues
  | nil
  | plain (value : Int) (name : String) (rest : TValues)
  | event (value : Int) (name : String) (struct : String) (d : TDecl) (rest : TValues)
end

/-- Number of variants (/repo/src/generator/proto_morphist.rs:432-435). -/
def TVariants.count : TVariants → Nat
  | .nil => 0
  | .cons _ _ _ rest => rest.count + 1

/-- Number of values (/repo/src/generator/proto_morphist.rs:449-452). -/
def TValues.count : TValues → Nat
  | .nil => 0
  | .plain _ _ rest => rest.count + 1
  | .event _ _ _ _ rest => rest.count + 1

/-! ## The code -/

/-- What is called: the `parser` of a `ProtoTypeConversion`, or the reader of a member
(/repo/src/generator/decoder_type.rs:249-304, 851). `hole`, `packedHole` and `quoted` are texts that do not compile. -/
inductive Callee
  | parseBool | takeNull | takeFourcc | takeUnalignedByte
  | hole
  | packedHole
  | quoted (k : String)
  | decl (n : Txt)
  | member (f : Txt)
  deriving DecidableEq

/-- A number that is passed: a variable, a literal, `x as usize`, `x as usize * 8usize` (/repo/src/generator/decoder_type.rs:800, 1371, 1469). -/
inductive Arg
  | var (x : Txt)
  | int (i : Int)
  | usize (n : Nat)
  | cast (x : Txt)
  | castBits (x : Txt)

/-- The right sides of `let (…, …) = …?;` (/repo/src/generator/decoder_type.rs:683-984, 1074-1160, 1232-1530). -/
inductive Call
  /-- `f(a)` -/
  | fn (f : Callee) (a : Txt)
  /-- `parse_packed_int(a, offset, bits)` -/
  | packed (a : Txt) (offset bits : Arg)
  /-- `take_n_bits_into_i64(a, bits)` -/
  | takeN (a : Txt) (bits : Arg)
  /-- `take_bit_array(a, bits)` -/
  | bitArray (a : Txt) (bits : Arg)
  /-- `byte_align(a)` -/
  | align (a : Txt)
  /-- `nom::multi::count(f, n)(a)` -/
  | count (f : Callee) (n : Arg) (a : Txt)

/-- The statements (/repo/src/generator/decoder_type.rs:683-984, 1074-1160, 1232-1530). -/
inductive Stmt
  /-- `let x: ty = v;` -/
  | letNum (x ty : Txt) (v : Int)
  /-- `let offset = 0i64;` -/
  | letOffset
  /-- `let x = x as usize;` -/
  | letCast (x : Txt)
  /-- `let (t, x) = c?;` -/
  | letPair (mt : Bool) (t x : Txt) (c : Call)
  /-- `let (tail, is_provided): ((&[u8], usize), bool) = parse_bool(a)?;` -/
  | letProvided (a : Txt)
  /-- `let tail = input;` -/
  | letTail (mt : Bool)
  /-- a log line -/
  | debug (t : Txt)
  /-- a comment -/
  | comment (t : Txt)
  /-- `let mut array = vec![];` -/
  | newVec
  /-- `for _ in 0..array_length { … }` -/
  | loop (f : Callee)
  /-- `let mut f: Option<ty> = None;`, or `Some(None)` -/
  | letAcc (f ty : Txt) (opt : Bool)
  /-- `if f.is_none() { … }`, or `if let Some(None) = f { … }` -/
  | fill (f : Txt) (opt : Bool)

/-- What an arm does with its payload (/repo/src/generator/decoder_type.rs:1110-1153, 1671-1688). -/
inductive ArmBody
  | plain (f : Callee)
  | optional (f : Callee)
  | event (f : Callee)
  | unit

/-- An arm of `match variant_tag` (/repo/src/generator/decoder_type.rs:1110-1153, 1663-1688). -/
structure Arm where
  tag : Int
  variant : Txt
  body : ArmBody

/-- The ends of a function (/repo/src/generator/decoder_type.rs:869-984, 1074-1160, 1232-1530). -/
inductive Ret
  /-- `Ok((tail, x))` -/
  | var (x : Txt)
  /-- `Ok((tail, Self { value }))` -/
  | value
  /-- `Ok((tail, Self { value: <_>::try_from(res)? }))` -/
  | valueFrom
  /-- `Ok((tail, Self {f: ok_or_return_missing_field_err!(f), …}))` -/
  | struct (fs : List Txt)
  /-- `let (tail, f) = if is_provided { … (tail, Some(x)) } else { (tail, None) }; Ok((tail, f))` -/
  | optional (f : Txt) (stmts : List Stmt) (x : Txt)
  /-- `match variant_tag { … }` of a choice or of an enum -/
  | matchTag (arms : List Arm)

/-- A function from `input` (/repo/src/generator/decoder_type.rs:857-984). -/
structure Fn where
  stmts : List Stmt
  ret : Ret

/-- `parse_<field>` (/repo/src/generator/decoder_type.rs:856-984). -/
structure Member where
  field : Txt
  ty : Txt
  opt : Bool
  body : Fn

/-- A type with its `impl` (/repo/src/generator/proto_morphist.rs:379-545). -/
structure Code where
  isEnum : Bool
  typeText : Txt
  members : List Member
  /-- the end of the `name` of the `tracing::instrument` of `parse`, and what stands before the name of the type in it -/
  before : Txt
  after : Txt
  parse : Fn

/-! ## From descriptions to code -/

/-- `ProtoTypeConversion` (/repo/src/generator/mod.rs:20-36). `do_try_from` is never set for the bit-packed module. -/
structure BMorph where
  rustTy : Txt
  parser : Callee
  isOptional : Bool := false
  isVec : Bool := false
  isSized : Bool := false

/-- `bit_packed_from_nnet_name`; `none` is the panic (/repo/src/generator/decoder_type.rs:249-304).  Simplification: a `fullname` that is the
name of a kind is not considered. -/
def bitMorph (nm : Naming) : TDesc → Option BMorph
  | .named n _ => if "NNet".toList.isPrefixOf n.toList then some { rustTy := nm.rust n, parser := .decl (nm.rust n) } else none
  | .bool => some { rustTy := lit "bool", parser := .parseBool }
  | .optional _ => some { rustTy := lit "Option<{}>", parser := .hole, isOptional := true }
  | .array .. => some { rustTy := lit "Vec<{}>", parser := .hole, isVec := true }
  | .dynArray .. => some { rustTy := lit "Vec<{}>", parser := .hole, isVec := true }
  | .blob _ => some { rustTy := lit "Vec<u8>", parser := .takeUnalignedByte, isVec := true }
  | .bitArray _ => some { rustTy := lit "Vec<u8>", parser := .takeUnalignedByte, isVec := true }
  | .ascii _ => some { rustTy := lit "Vec<u8>", parser := .takeUnalignedByte, isVec := true }
  | .string _ => some { rustTy := lit "Vec<u8>", parser := .takeUnalignedByte, isVec := true }
  | .int _ => some { rustTy := lit "i64", parser := .packedHole, isSized := true }
  | .fourcc => some { rustTy := lit "Vec<u8>", parser := .takeFourcc }
  | .null => some { rustTy := lit "()", parser := .takeNull }
  | .choice _ => none
  | .other _ => none

/-- `element_type.fullname`, expected (/repo/src/generator/decoder_type.rs:759-763, 813-817). -/
def elemBitMorph (nm : Naming) : TDesc → Option BMorph
  | .named n d => bitMorph nm (.named n d)
  | _ => none

/-- `bounds.max.evalue`, where there are bounds (/repo/src/generator/decoder_type.rs:877-879, 923-928). -/
def TDesc.maxBound : TDesc → Option Int
  | .int b => some b.max
  | .blob b => some b.max
  | .string b => some b.max
  | .ascii b => some b.max
  | .bitArray b => some b.max
  | .array b _ => some b.max
  | .dynArray b _ => some b.max
  | _ => none

/-- What is called to read a member, an integer with its bounds filled in (/repo/src/generator/decoder_type.rs:788-803, 832-841). -/
def readCall (t : TDesc) (m : BMorph) (a : Txt) : Call :=
  match t with
  | .int b => .packed (lit "input") (.int b.min) (.usize (maxBits b))
  | _ => .fn m.parser a

/-- The enclosed type of an optional member (/repo/src/generator/decoder_type.rs:741-787). -/
def enclosedBitMorph (nm : Naming) : TDesc → Option BMorph
  | .array _ e => (elemBitMorph nm e).map (fun m => { m with rustTy := lit "Vec<" ++ m.rustTy ++ lit ">", isVec := true, isOptional := true })
  | .bitArray _ => none                       -- `from_nnet_name("u8")` panics
  | t => bitMorph nm t

/-- The reading of a member with a length, after the presence bit (/repo/src/generator/decoder_type.rs:876-906). -/
def optionalVec (f : Txt) (max : Int) (p : Callee) (nm : Naming) : Fn where
  stmts := [.letProvided (lit "input")]
  ret := .optional f
    [.letPair false (lit "tail") (lit "array_length") (.takeN (lit "input") (.int (log2p1 max))), .letCast (lit "array_length"),
     .debug (lit "Reading array length: " ++ nm.num max),
     .letPair false (lit "tail") (lit "array") (.count p (.var (lit "array_length")) (lit "tail"))] (lit "array")

/-- The reading of another optional member (/repo/src/generator/decoder_type.rs:907-920). -/
def optionalOne (f : Txt) (c : Call) : Fn where
  stmts := [.letProvided (lit "input")]
  ret := .optional f [.letPair false (lit "tail") (lit "res") c] (lit "res")

/-- The reading of a member with a length (/repo/src/generator/decoder_type.rs:922-957). -/
def plainVec (max : Int) (p : Callee) : Fn where
  stmts := [.letPair true (lit "tail") (lit "array_length") (.takeN (lit "input") (.int (log2p1 max))), .letCast (lit "array_length"),
    .debug (lit "Reading array length: {array_length}"), .newVec, .loop p]
  ret := .var (lit "array")

/-- The reading of another member (/repo/src/generator/decoder_type.rs:958-983). -/
def plainOne (f : Txt) (c : Call) : Fn where
  stmts := [.letPair false (lit "tail") f c]
  ret := .var f

/-- A member: type and reader; `none` is a panic (/repo/src/generator/decoder_type.rs:716-984). -/
def memberCode (nm : Naming) (name : String) : TDesc → Option Member
  | .choice _ =>
    if name = "m_eventData" then
      some ⟨nm.snake name, lit "MEventData", false, plainOne (nm.snake name) (.fn (.decl (lit "MEventData")) (lit "input"))⟩
    else none
  | .bitArray _ => none                       -- `from_nnet_name("u8")` panics
  | .optional t => do
    let i ← enclosedBitMorph nm t
    if i.isVec then do
      let max ← t.maxBound
      some ⟨nm.snake name, replaceHole i.rustTy (lit "Option<{}>"), true, optionalVec (nm.snake name) max i.parser nm⟩
    else
      some ⟨nm.snake name, replaceHole i.rustTy (lit "Option<{}>"), true, optionalOne (nm.snake name) (readCall t i (lit "tail"))⟩
  | .array b e => do
    let i ← elemBitMorph nm e
    some ⟨nm.snake name, replaceHole i.rustTy (lit "Vec<{}>"), false, plainVec b.max i.parser⟩
  | .dynArray b e => do
    let i ← elemBitMorph nm e
    some ⟨nm.snake name, replaceHole i.rustTy (lit "Vec<{}>"), false, plainVec b.max i.parser⟩
  | t => do
    let m ← bitMorph nm t
    if m.isVec then do
      let max ← t.maxBound
      some ⟨nm.snake name, m.rustTy, false, plainVec max m.parser⟩
    else some ⟨nm.snake name, m.rustTy, false, plainOne (nm.snake name) (readCall t m (lit "input"))⟩

/-- The loop over the fields (/repo/src/generator/decoder_type.rs:698-979). -/
def membersCode (nm : Naming) : TMembers → Option (List Member)
  | .nil => some []
  | .const rest => membersCode nm rest
  | .member name t rest => do
    let m ← memberCode nm name t
    let ms ← membersCode nm rest
    some (m :: ms)

/-- `parse` of a struct (/repo/src/generator/decoder_type.rs:48-66, 835-870, 980-984). -/
def structFn (ms : List Member) : Fn where
  stmts := .letTail (!ms.isEmpty) :: (ms.map (fun m => .letAcc m.field m.ty m.opt) ++ ms.map (fun m => .fill m.field m.opt))
  ret := .struct (ms.map Member.field)

/-- `variant.type_info.type` (/repo/src/generator/decoder_type.rs:1096). -/
def TDesc.kind : TDesc → String
  | .named .. => "UserType"
  | .bool => "BoolType"
  | .null => "NullType"
  | .fourcc => "FourCCType"
  | .int _ => "IntType"
  | .blob _ => "BlobType"
  | .string _ => "StringType"
  | .ascii _ => "AsciiStringType"
  | .bitArray _ => "BitArrayType"
  | .array .. => "ArrayType"
  | .dynArray .. => "DynArrayType"
  | .optional _ => "OptionalType"
  | .choice _ => "ChoiceType"
  | .other k => k

/-- The type written and the arm of a variant (/repo/src/generator/decoder_type.rs:1093-1153). -/
def variantCode (nm : Naming) (tag : Int) (name : String) : TDesc → Option (Txt × Arm)
  | .optional (.named n _) => some (replaceHole (nm.rust n) (lit "Option<{}>"), ⟨tag, nm.rust name, .optional (.decl (nm.rust n))⟩)
  | .optional t => some (replaceHole (lit "\"" ++ lit t.kind ++ lit "\"") (lit "Option<{}>"), ⟨tag, nm.rust name, .optional (.quoted t.kind)⟩)
  | t => do
    let m ← bitMorph nm t
    some (m.rustTy, ⟨tag, nm.rust name, .plain m.parser⟩)

/-- The loop over the variants (/repo/src/generator/decoder_type.rs:1082-1154). -/
def variantsCode (nm : Naming) : TVariants → Option (Txt × List Arm)
  | .nil => some ([], [])
  | .cons tag name t rest => do
    let (ty, arm) ← variantCode nm tag name t
    let (tys, arms) ← variantsCode nm rest
    some (lit "    " ++ nm.rust name ++ lit "(" ++ ty ++ lit "),\n" ++ tys, arm :: arms)

/-- The loop over the values (/repo/src/generator/decoder_type.rs:1652-1689). -/
def valuesCode (nm : Naming) : TValues → Txt × List Arm
  | .nil => ([], [])
  | .plain value name rest =>
    (lit "    " ++ nm.rust name ++ lit ",\n" ++ (valuesCode nm rest).1, ⟨value, nm.rust name, .unit⟩ :: (valuesCode nm rest).2)
  | .event value name struct _ rest =>
    (lit "    " ++ nm.rust name ++ lit "(" ++ nm.rust struct ++ lit ")" ++ lit ",\n" ++ (valuesCode nm rest).1,
      ⟨value, nm.rust name, .event (.decl (nm.rust struct))⟩ :: (valuesCode nm rest).2)

/-- `parse` of a choice (/repo/src/generator/decoder_type.rs:336-357, 375). -/
def choiceFn (nm : Naming) (n : Nat) (arms : List Arm) : Fn where
  stmts := [.comment (lit "ChoiceType:"), .comment (lit "Use the number of elements in the json .fields to calculate how many"), .comment (lit "bits to have unique tags."),
    .comment (lit "let num_fields: usize = " ++ nm.num n ++ lit ";"), .letOffset, .letNum (lit "num_bits") (lit "usize") (tagBits n),
    .letPair false (lit "tail") (lit "variant_tag") (.packed (lit "input") (.var (lit "offset")) (.var (lit "num_bits")))]
  ret := .matchTag arms

/-- `parse` of an enum (/repo/src/generator/decoder_type.rs:1594-1609). -/
def enumFn (nm : Naming) (n : Nat) (arms : List Arm) : Fn where
  stmts := [.comment (lit "Total fields: " ++ nm.num n), .letNum (lit "num_bits") (lit "usize") (tagBits n),
    .letPair false (lit "tail") (lit "variant_tag") (.packed (lit "input") (.int 0) (.var (lit "num_bits")))]
  ret := .matchTag arms

/-- `parse` of an integer (/repo/src/generator/decoder_type.rs:1232-1267). -/
def intFn (b : Bounds) : Fn where
  stmts := [.letNum (lit "offset") (lit "i64") b.min, .letNum (lit "num_bits") (lit "usize") (intBits b),
    .letPair false (lit "tail") (lit "res") (.packed (lit "input") (.var (lit "offset")) (.var (lit "num_bits")))]
  ret := .valueFrom

/-- `parse` of a bit array (/repo/src/generator/decoder_type.rs:1357-1375). -/
def bitArrayFn (b : Bounds) : Fn where
  stmts := [.letNum (lit "bitarray_length_bits") (lit "usize") (maxBits b),
    .letPair false (lit "tail") (lit "bitarray_length") (.takeN (lit "input") (.var (lit "bitarray_length_bits"))),
    .letPair false (lit "tail") (lit "value") (.bitArray (lit "tail") (.cast (lit "bitarray_length")))]
  ret := .value

/-- `parse` of another name (/repo/src/generator/decoder_type.rs:1312-1326). -/
def userFn (n : Txt) : Fn where
  stmts := [.letPair false (lit "tail") (lit "value") (.fn (.decl n) (lit "input"))]
  ret := .value

/-- `parse` of a blob (/repo/src/generator/decoder_type.rs:1403-1421). -/
def blobFn (b : Bounds) : Fn where
  stmts := [.letPair false (lit "tail") (lit "_") (.align (lit "input")), .letNum (lit "num_bits") (lit "usize") (maxBits b),
    .letPair false (lit "tail") (lit "value") (.bitArray (lit "tail") (.var (lit "num_bits")))]
  ret := .value

/-- `parse` of a string (/repo/src/generator/decoder_type.rs:1442-1473). -/
def stringFn (b : Bounds) : Fn where
  stmts := [.letNum (lit "str_size_num_bits") (lit "usize") (arrayBits b + 2 : Nat),
    .letPair false (lit "tail") (lit "str_size") (.packed (lit "input") (.int 0) (.var (lit "str_size_num_bits"))),
    .letPair false (lit "tail") (lit "_") (.align (lit "tail")),
    .letPair false (lit "tail") (lit "value") (.bitArray (lit "tail") (.castBits (lit "str_size")))]
  ret := .value

/-- `parse` of an array (/repo/src/generator/decoder_type.rs:1505-1530). -/
def arrayFn (b : Bounds) (n : Txt) : Fn where
  stmts := [.letNum (lit "array_length_num_bits") (lit "usize") (arrayBits b),
    .letPair false (lit "tail") (lit "array_length") (.packed (lit "input") (.int 0) (.var (lit "array_length_num_bits"))),
    .letPair false (lit "tail") (lit "value") (.count (.decl n) (.cast (lit "array_length")) (lit "tail"))]
  ret := .value

/-- `gen_proto_code`: the item of a declaration (/repo/src/generator/proto_morphist.rs:379-545; the types of single values,
decoder_type.rs:1736-1912). -/
def declCode (nm : Naming) : TDecl → Option Code
  | .struct fs => do
    let ms ← membersCode nm fs
    some { isEnum := false, typeText := ms.flatMap (fun m => lit "    pub " ++ m.field ++ lit ": " ++ m.ty ++ lit ",\n"), members := ms,
           before := lit "bit_packed::", after := lit "::Parse", parse := structFn ms }
  | .choice vs => do
    let (ty, arms) ← variantsCode nm vs
    some { isEnum := true, typeText := ty, members := [], before := [], after := lit "::ChoiceType::parse", parse := choiceFn nm vs.count arms }
  | .enum vs =>
    some { isEnum := true, typeText := (valuesCode nm vs).1, members := [], before := [], after := lit "::Parse",
           parse := enumFn nm vs.count (valuesCode nm vs).2 }
  | .int b =>
    some { isEnum := false, typeText := lit "    pub value: i64,", members := [], before := [],
           after := lit "::IntType::Parse::" ++ (if b.pow.isSome then lit "PowExpr" else lit "MinMaxConstraint"), parse := intFn b }
  | .bitArray b =>
    if b.min = 0 then                                          -- asserted, 1363
      some { isEnum := false, typeText := lit "    pub value: Vec<u8>,", members := [], before := [], after := lit "::BitArrayType::Parse", parse := bitArrayFn b }
    else none
  | .user n _ =>
    some { isEnum := false, typeText := lit "    pub value: " ++ nm.rust n ++ lit ",", members := [], before := [], after := lit "::UserType::Parse",
           parse := userFn (nm.rust n) }
  | .blob b =>
    if b.min = b.max then                                      -- asserted, 1409
      some { isEnum := false, typeText := lit "    pub value: Vec<u8>,", members := [], before := [], after := lit "::BlobType::Parse", parse := blobFn b }
    else none
  | .string b =>
    if b.min = 0 then                                          -- asserted, 1448
      some { isEnum := false, typeText := lit "    pub value: Vec<u8>,", members := [], before := [], after := lit "::StringType::Parse", parse := stringFn b }
    else none
  | .array b (.named n _) =>
    some { isEnum := false, typeText := lit "    pub value: Vec<" ++ nm.rust n ++ lit ">,", members := [], before := [], after := lit "::ArrayType::Parse",
           parse := arrayFn b (nm.rust n) }
  | .array _ _ => none                                         -- `unwrap`

/-! ## The text -/

/-- (/repo/src/generator/decoder_type.rs:249-304, 851) -/
def Callee.text : Callee → Txt
  | .parseBool => lit "parse_bool"
  | .takeNull => lit "take_null"
  | .takeFourcc => lit "take_fourcc"
  | .takeUnalignedByte => lit "take_unaligned_byte"
  | .hole => lit "{}"
  | .packedHole => lit "parse_packed_int({})"
  | .quoted k => lit "\"" ++ lit k ++ lit "\"::parse"
  | .decl n => n ++ lit "::parse"
  | .member f => lit "Self::parse_" ++ f

/-- (/repo/src/generator/decoder_type.rs:800, 1371, 1469) -/
def Arg.text (nm : Naming) : Arg → Txt
  | .var x => x
  | .int i => nm.num i
  | .usize n => nm.num n ++ lit "usize"
  | .cast x => x ++ lit " as usize"
  | .castBits x => x ++ lit " as usize * 8usize"

/-- (/repo/src/generator/decoder_type.rs:683-984, 1074-1160, 1232-1530) -/
def Call.text (nm : Naming) : Call → Txt
  | .fn f a => f.text ++ lit "(" ++ a ++ lit ")"
  | .packed a o b => lit "parse_packed_int(" ++ a ++ lit ", " ++ o.text nm ++ lit ", " ++ b.text nm ++ lit ")"
  | .takeN a b => lit "take_n_bits_into_i64(" ++ a ++ lit ", " ++ b.text nm ++ lit ")"
  | .bitArray a b => lit "take_bit_array(" ++ a ++ lit ", " ++ b.text nm ++ lit ")"
  | .align a => lit "byte_align(" ++ a ++ lit ")"
  | .count f n a => lit "nom::multi::count(" ++ f.text ++ lit ", " ++ n.text nm ++ lit ")" ++ (lit "(" ++ a ++ lit ")")

/-- (/repo/src/generator/decoder_type.rs:683-984, 1074-1160, 1232-1530) -/
def Stmt.text (nm : Naming) : Stmt → Txt
  | .letNum x ty v => lit "let " ++ x ++ lit ": " ++ ty ++ lit " = " ++ nm.num v ++ lit ";\n"
  | .letOffset => lit "let offset = 0i64;\n"
  | .letCast x => lit "let " ++ x ++ lit " = " ++ x ++ lit " as usize;\n"
  | .letPair mt t x c => lit "let (" ++ (if mt then lit "mut " else []) ++ t ++ lit ", " ++ x ++ lit ") = " ++ c.text nm ++ lit "?;\n"
  | .letProvided a => lit "let (tail, is_provided): ((&[u8], usize), bool) = parse_bool(" ++ a ++ lit ")?;\n"
  | .letTail mt => lit "let " ++ (if mt then lit "mut " else []) ++ lit "tail = input;\n"
  | .debug t => lit "tracing::debug!(\"" ++ t ++ lit "\");\n"
  | .comment t => lit "// " ++ t ++ lit "\n"
  | .newVec => lit "let mut array = vec![];\n"
  | .loop f => lit "for _ in 0..array_length {\nlet (new_tail, data) = " ++ f.text ++ lit "(tail)?;\ntail = new_tail;\narray.push(data);\n}\n"
  | .letAcc f ty opt => lit "let mut " ++ f ++ lit ": Option<" ++ ty ++ (if opt then lit "> = Some(None);\n" else lit "> = None;\n")
  | .fill f opt =>
    (if opt then lit " if let Some(None) = " ++ f ++ lit " " else lit " if " ++ f ++ lit ".is_none()") ++
    lit " {\nlet (new_tail, parsed_" ++ f ++ lit ") = Self::parse_" ++ f ++ lit "(tail)?;\ntail = new_tail;\n" ++ f ++ lit " = Some(parsed_" ++ f ++ lit ");\n}\n"

/-- Several statements. [std] -/
def stmtsText (nm : Naming) (ss : List Stmt) : Txt := ss.flatMap (Stmt.text nm)

/-- (/repo/src/generator/decoder_type.rs:1110-1153, 1663-1688) -/
def Arm.text (nm : Naming) (a : Arm) : Txt :=
  match a.body with
  | .plain f =>
    lit " " ++ nm.num a.tag ++ lit " => {\ntracing::debug!(\"Variant tagged '" ++ nm.num a.tag ++ lit "' for " ++ a.variant ++ lit "\");\n" ++
    lit "let (tail, res) = " ++ f.text ++ lit "(tail)?;\n" ++ lit "    Ok((tail, Self::" ++ a.variant ++ lit "(res)))\n" ++ lit "    },\n"
  | .optional f =>
    lit " " ++ nm.num a.tag ++ lit " => {\ntracing::debug!(\"Variant tagged '" ++ nm.num a.tag ++ lit "' for " ++ a.variant ++ lit "\");\n" ++
    lit "let (tail, is_provided): ((&[u8], usize), bool) = parse_bool(tail)?;\nif is_provided {\nlet (tail, res) = " ++ f.text ++
    lit "(tail)?;\n    Ok((tail, Self::" ++ a.variant ++ lit "(Some(res))))\n} else {\n    Ok((tail, Self::" ++ a.variant ++ lit "(None)))\n}\n" ++ lit "    },\n"
  | .event f =>
    lit " " ++ nm.num a.tag ++ lit " => {\ntracing::debug!(\"Variant " ++ a.variant ++ lit " for value '" ++ nm.num a.tag ++ lit "'\");\n" ++
    lit "let (tail, res) = " ++ f.text ++ lit "(tail)?;\n" ++ lit "    Ok((tail, Self::" ++ a.variant ++ lit "(res)))\n" ++ lit "    },\n"
  | .unit =>
    lit " " ++ nm.num a.tag ++ lit " => {\ntracing::debug!(\"Variant " ++ a.variant ++ lit " for value '" ++ nm.num a.tag ++ lit "'\");\n" ++
    lit "Ok((tail, Self::" ++ a.variant ++ lit "))\n},\n"

/-- (/repo/src/generator/decoder_type.rs:869-984, 1074-1160, 1232-1530; the error line is that of a choice) -/
def Ret.text (nm : Naming) : Ret → Txt
  | .var x => lit "        Ok((tail, " ++ x ++ lit "))\n"
  | .value => lit "Ok((tail, Self { value }))\n"
  | .valueFrom => lit "Ok((tail, Self { value: <_>::try_from(res)? }))\n"
  | .struct fs => lit "Ok((tail, Self {" ++ fs.flatMap (fun f => f ++ lit ": ok_or_return_missing_field_err!(" ++ f ++ lit "),\n") ++ lit "}))\n"
  | .optional f ss x =>
    lit "let (tail, " ++ f ++ lit ") = if is_provided {\n" ++ stmtsText nm ss ++ lit "(tail, Some(" ++ x ++ lit "))" ++
    lit "} else {\n    (tail, None)\n};\n" ++ lit "        Ok((tail, " ++ f ++ lit "))\n"
  | .matchTag arms =>
    lit "match variant_tag {\n" ++ arms.flatMap (Arm.text nm) ++
    lit "\n _ => {\ntracing::error!(\"Unknown variant for tag {variant_tag}\");\nErr(S2ProtocolError::UnknownTag(variant_tag))\n},\n}"

/-- (/repo/src/generator/decoder_type.rs:856-984) -/
def Fn.text (nm : Naming) (f : Fn) : Txt := stmtsText nm f.stmts ++ f.ret.text nm

/-- (/repo/src/generator/decoder_type.rs:856-859) -/
def Member.text (nm : Naming) (m : Member) : Txt :=
  lit "#[tracing::instrument(level = \"trace\", skip(input), fields(peek = peek_bits(input)))]\npub fn parse_" ++ m.field ++
  lit "(input: (&[u8], usize)) -> S2ProtoResult<(&[u8], usize), " ++ m.ty ++ lit "> {\n" ++ m.body.text nm ++ lit "}\n"

/-- The item of a declaration (/repo/src/generator/proto_morphist.rs:379-545, 556-623). -/
def Code.text (nm : Naming) (proto name : Txt) (k : Code) : Txt :=
  lit "\n#[derive(Debug, PartialEq, Clone)]\npub " ++ (if k.isEnum then lit "enum" else lit "struct") ++ lit " " ++ name ++ lit " {\n" ++ k.typeText ++ lit "}\n" ++
  (lit "impl " ++ name ++ lit " {\n" ++ k.members.flatMap (Member.text nm) ++
   (lit "#[tracing::instrument(name=\"" ++ proto ++ lit "::" ++ k.before ++ name ++ k.after ++
    lit "\", level = \"trace\", skip(input), fields(peek = peek_bits(input)))]\npub fn parse(input: (&[u8], usize)) -> S2ProtoResult<(&[u8], usize), Self> {\n" ++
    k.parse.text nm ++ lit "}") ++ lit "}\n" ++ lit "\n")

/-- The text for a list of declarations; `none` is a panic (/repo/src/generator/proto_morphist.rs:213-303; which ones:
`bitsSelected`). -/
def bitDeclsText (nm : Naming) (proto : Txt) : List (String × TDecl) → Option Txt
  | [] => some []
  | (n, d) :: rest => do
    let k ← declCode nm d
    let ts ← bitDeclsText nm proto rest
    some (k.text nm proto (nm.rust n) ++ ts)

/-- `gen_bit_packed_mod` (/repo/src/generator/proto_morphist.rs:74-107, 213-303).  The comment with the path is left out. -/
def bitModuleText (nm : Naming) (proto : Txt) (ds : List (String × TDecl)) : Option Txt := do
  let ts ← bitDeclsText nm proto ds
  some (lit "pub mod bit_packed {\n" ++ lit "use crate::*;\n" ++ ts ++ lit "}\n")

/-! ## What the code does -/

/-- A compiled function: `none` if it does not compile. [the meaning of the text] -/
abbrev Prog := Cur → Option (Res (Cur × Val))

/-- The value of a variable. [the meaning of the text] -/
inductive RVal
  | cur (c : Cur)
  | val (v : Val)
  | acc (o : Option Val)

/-- The variables: is it `mut`, and what is in it. [the meaning of the text] -/
abbrev Vars := Txt → Option (Bool × RVal)

/-- `let` (shadowing) and assignment. [the meaning of the text] -/
def Vars.set (σ : Vars) (x : Txt) (mt : Bool) (v : RVal) : Vars := fun y => if y = x then some (mt, v) else σ y

/-- [the meaning of the text] -/
def Vars.cur (σ : Vars) (x : Txt) : Option Cur :=
  match σ x with
  | some (_, .cur c) => some c
  | _ => none

/-- [the meaning of the text] -/
def Vars.val (σ : Vars) (x : Txt) : Option Val :=
  match σ x with
  | some (_, .val v) => some v
  | _ => none

/-- [the meaning of the text] -/
def Vars.int (σ : Vars) (x : Txt) : Option Int :=
  match σ x with
  | some (_, .val (.int i)) => some i
  | _ => none

/-- `?` and the sequence of statements. [the meaning of the text] -/
def andThen {α β : Type} (m : Option (Res α)) (k : α → Option (Res β)) : Option (Res β) :=
  match m with
  | none => none
  | some (.ok a) => k a
  | some (.err e) => some (.err e)
  | some .panic => some .panic

/-- A function of the crate. [the meaning of the text] -/
def lift {α : Type} (p : Cur → Res (Cur × α)) (f : α → Val) : Prog := fun c => some (do
  let (tail, a) ← p c
  pure (tail, f a))

/-- The callee: the functions of the crate (/repo/src/bit_packed_decoder.rs:104-162), those of the module (`env`) and those of the `impl` (`self`).  A byte is
not a value of a described type. [the meaning of the text] -/
def Callee.run (env self : Txt → Prog) : Callee → Prog
  | .parseBool => lift S2.parseBool .bool
  | .takeNull => lift S2.takeNull (fun _ => .unit)
  | .takeFourcc => lift S2.takeFourcc .bytes
  | .decl n => env n
  | .member f => self f
  | _ => fun _ => none

/-- [the meaning of the text] -/
def Arg.run (σ : Vars) : Arg → Option Int
  | .var x => σ.int x
  | .int i => some i
  | .usize n => some n
  | .cast x => (σ.int x).map (fun i => (asUsize i : Int))
  | .castBits x => (σ.int x).map (fun i => ((asUsize i * 8 : Nat) : Int))

/-- `n` calls, each from where the one before ended. [the meaning of the text] -/
def repeatProg (p : Prog) : Nat → Cur → Option (Res (Cur × List Val))
  | 0, c => some (.ok (c, []))
  | n + 1, c => andThen (p c) (fun r => andThen (repeatProg p n r.1) (fun s => some (.ok (s.1, r.2 :: s.2))))

/-- `n` elements: bytes, or values. [the meaning of the text] -/
def Callee.many (env self : Txt → Prog) (f : Callee) (n : Nat) : Prog :=
  if f = .takeUnalignedByte then lift (repeatN S2.takeUnalignedByte n) .bytes
  else fun c => andThen (repeatProg (f.run env self) n c) (fun r => some (.ok (r.1, .list r.2)))

/-- [the meaning of the text] -/
def Call.run (bld : Build) (env self : Txt → Prog) (σ : Vars) : Call → Option (Res (Cur × Val))
  | .fn f a => do
    let c ← σ.cur a
    f.run env self c
  | .packed a o b => do
    let c ← σ.cur a
    let o ← o.run σ
    let b ← b.run σ
    lift (fun c => parsePackedInt bld c o b.toNat) .int c
  | .takeN a b => do
    let c ← σ.cur a
    let b ← b.run σ
    lift (fun c => takeI64 c b.toNat) .int c
  | .bitArray a b => do
    let c ← σ.cur a
    let b ← b.run σ
    lift (fun c => takeBitArray c b.toNat) .bytes c
  | .align a => do
    let c ← σ.cur a
    lift byteAlign (fun _ => .unit) c
  | .count f n a => do
    let c ← σ.cur a
    let n ← n.run σ
    f.many env self n.toNat c

/-- `if f.is_none()`, `if let Some(None) = f`. [the meaning of the text] -/
def guardHolds (opt : Bool) (o : Option Val) : Bool :=
  match opt, o with
  | false, none => true
  | true, some .none => true
  | _, _ => false

/-- [the meaning of the text] -/
def Stmt.run (bld : Build) (env self : Txt → Prog) (σ : Vars) : Stmt → Option (Res Vars)
  | .letNum x _ v => some (.ok (σ.set x false (.val (.int v))))
  | .letOffset => some (.ok (σ.set (lit "offset") false (.val (.int 0))))
  | .letCast x => (σ.int x).bind (fun i => some (.ok (σ.set x false (.val (.int (asUsize i))))))
  | .letPair mt t x c =>
    if t = x then none else
    andThen (c.run bld env self σ) (fun r => some (.ok ((σ.set t mt (.cur r.1)).set x false (.val r.2))))
  | .letProvided a =>
    andThen ((Call.fn .parseBool a).run bld env self σ)
      (fun r => some (.ok ((σ.set (lit "tail") false (.cur r.1)).set (lit "is_provided") false (.val r.2))))
  | .letTail mt => (σ.cur (lit "input")).bind (fun c => some (.ok (σ.set (lit "tail") mt (.cur c))))
  | .debug _ => some (.ok σ)
  | .comment _ => some (.ok σ)
  | .newVec => some (.ok (σ.set (lit "array") true (.val (.list []))))
  | .loop f =>
    match σ (lit "tail"), σ (lit "array_length"), σ (lit "array") with
    | some (true, .cur c), some (_, .val (.int n)), some (true, .val (.list [])) =>
      andThen (f.many env self n.toNat c) (fun r => some (.ok ((σ.set (lit "tail") true (.cur r.1)).set (lit "array") true (.val r.2))))
    | _, _, _ => none
  | .letAcc f _ opt => some (.ok (σ.set f true (.acc (if opt then some .none else none))))
  | .fill f opt =>
    if f = lit "new_tail" then none else
    match σ f, σ (lit "tail") with
    | some (true, .acc o), some (true, .cur c) =>
      if guardHolds opt o then
        andThen (self f c) (fun r => some (.ok ((σ.set (lit "tail") true (.cur r.1)).set f true (.acc (some r.2)))))
      else some (.ok σ)
    | _, _ => none

/-- [the meaning of the text] -/
def runStmts (bld : Build) (env self : Txt → Prog) : List Stmt → Vars → Option (Res Vars)
  | [], σ => some (.ok σ)
  | s :: rest, σ => andThen (s.run bld env self σ) (runStmts bld env self rest)

/-- The fields of the returned struct; a missing one is an error (/repo/src/lib.rs:58-70). [the meaning of the text] -/
def collectFields (σ : Vars) : List Txt → Option (Res (List Val))
  | [] => some (.ok [])
  | f :: rest =>
    match σ f with
    | some (_, .acc (some v)) => andThen (collectFields σ rest) (fun vs => some (.ok (v :: vs)))
    | some (_, .acc none) => some (.err (.missingField (String.ofList f)))
    | _ => none

/-- [the meaning of the text] -/
def ArmBody.run (env self : Txt → Prog) : ArmBody → Prog
  | .plain f => f.run env self
  | .event f => f.run env self
  | .unit => fun c => some (.ok (c, .unit))
  | .optional f => fun c => andThen (lift S2.parseBool .bool c) (fun r =>
      match r.2 with
      | .bool true => andThen (f.run env self r.1) (fun s => some (.ok (s.1, .some s.2)))
      | _ => some (.ok (r.1, .none)))

/-- `match variant_tag`: the first arm with the tag. [the meaning of the text] -/
def runArms (env self : Txt → Prog) (tag : Int) : List Arm → Prog
  | [], _ => some (.err (.unknownTag tag))
  | a :: rest, c => if tag = a.tag then a.body.run env self c else runArms env self tag rest c

/-- [the meaning of the text] -/
def Ret.run (bld : Build) (env self : Txt → Prog) (σ : Vars) : Ret → Option (Res (Cur × Val))
  | .var x => do
    let c ← σ.cur (lit "tail")
    let v ← σ.val x
    some (.ok (c, v))
  | .value => do
    let c ← σ.cur (lit "tail")
    let v ← σ.val (lit "value")
    some (.ok (c, v))
  | .valueFrom => do
    let c ← σ.cur (lit "tail")
    let v ← σ.int (lit "res")
    some (.ok (c, .int v))
  | .struct fs => do
    let c ← σ.cur (lit "tail")
    andThen (collectFields σ fs) (fun vs => some (.ok (c, .struct vs)))
  | .optional f ss x =>
    if f = lit "tail" then none else
    match σ.val (lit "is_provided") with
    | some (.bool true) => andThen (runStmts bld env self ss σ) (fun σ' => do
        let c ← σ'.cur (lit "tail")
        let v ← σ'.val x
        some (.ok (c, .some v)))
    | some (.bool false) => do
        let c ← σ.cur (lit "tail")
        some (.ok (c, .none))
    | _ => none
  | .matchTag arms => do
    let c ← σ.cur (lit "tail")
    let tag ← σ.int (lit "variant_tag")
    andThen (runArms env self tag arms c) (fun r => some (.ok (r.1, .choice tag r.2)))

/-- The function called with a cursor. [the meaning of the text] -/
def Fn.run (bld : Build) (env self : Txt → Prog) (f : Fn) : Prog := fun c =>
  andThen (runStmts bld env self f.stmts (Vars.set (fun _ => none) (lit "input") false (.cur c))) (fun σ => f.ret.run bld env self σ)

/-- `Self::parse_<field>`; two functions of one name do not compile. [the meaning of the text] -/
def selfOf (bld : Build) (env : Txt → Prog) (ms : List Member) (f : Txt) : Prog :=
  match ms.filter (fun m => decide (m.field = f)) with
  | [m] => m.body.run bld env (fun _ _ => none)
  | _ => fun _ => none

/-- `X::parse`. [the meaning of the text] -/
def Code.run (bld : Build) (env : Txt → Prog) (k : Code) : Prog := k.parse.run bld env (selfOf bld env k.members)

end S2.Generator
