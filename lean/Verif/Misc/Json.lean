import Verif.Text
import Verif.Basic
/-!
# Values as JSON trees

What `#[derive(Serialize, Deserialize)]` with the attributes used in /repo/src makes of a value: the tree `json!(value)` or
`serde_json::to_string` writes (/repo/src/game_events/ability/balance_data/json_handler.rs:33,
/repo/examples/cli/mod.rs:176-206) and the value `serde_json::from_reader`/`from_slice` reads from a tree
(/repo/src/game_events/ability/balance_data/json_handler.rs:77-78, 117).  The structs and enums themselves are data
(`Verif.Gen.JsonSchema`).  The text of a JSON file is not modelled, only its tree: `serde_json`'s printer and scanner are
parameters of the theorems.  Error messages are not modelled: a tree that cannot be read gives `none`.
-/
namespace S2.Json

/-- What is not modelled inside: `f32` in the structs, `f64` in the JSON tree, and the conversions serde_json makes
between them (`Number::from_f32`, none for an infinity or a NaN; `as f32` of an `f64` and of an integer), and
`chrono::NaiveDateTime` with its text form. [std, serde_json, chrono] -/
structure Prims where
  F32 : Type
  F64 : Type
  zero : F32
  widen : F32 → Option F64
  narrow : F64 → F32
  ofInt : Int → F32
  Date : Type
  epoch : Date
  showDate : Date → String
  readDate : String → Option Date

variable (F : Prims)

/-- `serde_json::Value`, which `json!` returns (/repo/src/game_events/ability/balance_data/json_handler.rs:33). -/
inductive Json where
  | null
  | bool (b : Bool)
  | int (i : Int)
  | flt (x : F.F64)
  | str (s : String)
  | arr (js : List Json)
  | obj (ms : List (String × Json))

/-- `#[serde(default)]`, `#[serde(skip)]` or neither, on a field (/repo/src/game_events/ability/balance_data/mod.rs:82-524). -/
inductive Kind where
  | required
  | default
  | skip
  deriving DecidableEq, Repr

/-- The key type of a `HashMap` (/repo/src/state/mod.rs:235-242): `u32`, `i64` or `String`. -/
inductive KeyTy where
  | uint (bits : Nat)
  | sint (bits : Nat)
  | string
  deriving DecidableEq, Repr

mutual
/-- The types of the fields (/repo/src/state/mod.rs, /repo/src/game_events/ability/balance_data/mod.rs:82-524); `uint` and
`sint` have their width in bits, `array` its length. -/
inductive JTy where
  | string
  | bool
  | uint (bits : Nat)
  | sint (bits : Nat)
  | f32
  | date
  | opt (t : JTy)
  | list (t : JTy)
  | array (n : Nat) (t : JTy)
  | map (k : KeyTy) (t : JTy)
  | struct (fs : JFields)
  | enum (vs : JVariants)
/-- The fields of a struct: serialized name, attribute and type (/repo/src/game_events/ability/balance_data/mod.rs:82-524). -/
inductive JFields where
  | nil
  | cons (key : String) (kind : Kind) (t : JTy) (rest : JFields)
/-- The variants of an enum: without data, with one unnamed field, with named fields (/repo/src/state/mod.rs:106-174). -/
inductive JVariants where
  | nil
  | unit (name : String) (rest : JVariants)
  | newtype (name : String) (t : JTy) (rest : JVariants)
  | fields (name : String) (fs : JFields) (rest : JVariants)
end

/-- A Rust value.  `struct` has the values of the fields in the order of their declaration, `variant` the value in the
variant (`struct []` if there is none, `struct vs` for named fields).  A hash map is the list of its entries in ascending
order of the keys' texts: every hash map has exactly one such list (/repo/src/state/mod.rs:41-330). -/
inductive JVal where
  | str (s : String)
  | bool (b : Bool)
  | int (i : Int)
  | flt (x : F.F32)
  | date (d : F.Date)
  | none
  | some (v : JVal)
  | list (vs : List JVal)
  | map (es : List (String × JVal))
  | struct (vs : List JVal)
  | variant (name : String) (v : JVal)

variable {F}

mutual
/-- `Default::default()` of a field's type, derived for the structs that need it
(/repo/src/game_events/ability/balance_data/mod.rs:416-477).  No field whose default is used contains an array, a date or an
enum. -/
def dflt : JTy → JVal F
  | .string => .str ""
  | .bool => .bool false
  | .uint _ => .int 0
  | .sint _ => .int 0
  | .f32 => .flt F.zero
  | .date => .date F.epoch
  | .opt _ => .none
  | .list _ => .list []
  | .array _ _ => .list []
  | .map _ _ => .map []
  | .struct fs => .struct (dfltFields fs)
  | .enum _ => .struct []
/-- [part of `dflt`; /repo/src/game_events/ability/balance_data/mod.rs:416-477] -/
def dfltFields : JFields → List (JVal F)
  | .nil => []
  | .cons _ _ t rest => dflt t :: dfltFields rest
end

/-- The values of the fields of a struct or variant. [/repo/src/state/mod.rs:41-330] -/
def partsOf : JVal F → List (JVal F)
  | .struct vs => vs
  | _ => []

mutual
/-- `json!(value)`, the derived `Serialize` (/repo/src/game_events/ability/balance_data/json_handler.rs:33): a number
that is not finite is written as `null`, like `None`.  A value that is not of the type has no counterpart in Rust and is
written as `null`. -/
def encode : JTy → JVal F → Json F
  | .string, .str s => .str s
  | .bool, .bool b => .bool b
  | .uint _, .int i => .int i
  | .sint _, .int i => .int i
  | .f32, .flt x => match F.widen x with
    | some y => .flt y
    | none => .null
  | .date, .date d => .str (F.showDate d)
  | .opt _, .none => .null
  | .opt t, .some v => encode t v
  | .list t, .list vs => .arr (vs.map (encode t))
  | .array _ t, .list vs => .arr (vs.map (encode t))
  | .map _ t, .map es => .obj (es.map (fun e => (e.1, encode t e.2)))
  | .struct fs, .struct vs => .obj (encodeFields fs vs)
  | .enum vs, .variant n v => encodeVariant vs n v
  | _, _ => .null
/-- The members of a struct: a skipped field is not written
(/repo/src/game_events/ability/balance_data/json_handler.rs:33). -/
def encodeFields : JFields → List (JVal F) → List (String × Json F)
  | .cons _ .skip _ rest, _ :: vs => encodeFields rest vs
  | .cons k _ t rest, v :: vs => (k, encode t v) :: encodeFields rest vs
  | _, _ => []
/-- A variant of an enum: its name, or an object whose only member has its name (serde's externally tagged form; no enum
has another, e.g. /repo/src/state/mod.rs:105-119). -/
def encodeVariant : JVariants → String → JVal F → Json F
  | .nil, _, _ => .null
  | .unit k rest, n, v => if k = n then .str n else encodeVariant rest n v
  | .newtype k t rest, n, v => if k = n then .obj [(n, encode t v)] else encodeVariant rest n v
  | .fields k fs rest, n, v =>
    if k = n then .obj [(n, .obj (encodeFields fs (partsOf v)))] else encodeVariant rest n v
end

/-- Every element of a list, or nothing. [std: `collect::<Result<Vec<_>, _>>`] -/
def allOf {α β : Type} (f : α → Option β) : List α → Option (List β)
  | [] => some []
  | a :: as =>
    match f a, allOf f as with
    | some b, some bs => some (b :: bs)
    | _, _ => none

/-- The members of an object with a given name. [serde's derived visitor; used at
/repo/src/game_events/ability/balance_data/json_handler.rs:77-78] -/
def membersOf (k : String) : List (String × Json F) → List (Json F)
  | [] => []
  | (k', j) :: ms => if k' = k then j :: membersOf k ms else membersOf k ms

/-- `Option` fields may be missing even without `#[serde(default)]` (serde's `missing_field`); used at
/repo/src/game_events/ability/balance_data/json_handler.rs:77-78. -/
def whenMissing : JTy → Option (JVal F)
  | .opt _ => some .none
  | _ => none

/-- An `Option`: `null` is `None`, everything else has to be a value (serde_json's `deserialize_option`); used at
/repo/src/game_events/ability/balance_data/json_handler.rs:77-78. -/
def readOpt (f : Json F → Option (JVal F)) : Json F → Option (JVal F)
  | .null => some .none
  | j => (f j).map .some

/-- The integer a text of decimal digits stands for (0 if it is none). [serde_json: integer keys] -/
def keyInt (s : String) : Int :=
  match s.toList with
  | '-' :: cs => -(Nat.ofDigitChars 10 cs 0 : Int)
  | cs => (Nat.ofDigitChars 10 cs 0 : Int)

/-- Is this the text of a key of the type?  serde_json writes integer keys in decimal and reads them with the grammar of
JSON numbers, so that no other text than the one it writes is read (but for "-0", which is ignored here).  Used for the
maps of /repo/src/state/mod.rs:235-242. -/
def keyOk : KeyTy → String → Bool
  | .string, _ => true
  | .uint b, s => decide (0 ≤ keyInt s ∧ keyInt s < 2 ^ b ∧ toString (keyInt s) = s)
  | .sint b, s => decide (-2 ^ (b - 1) ≤ keyInt s ∧ keyInt s < 2 ^ (b - 1) ∧ toString (keyInt s) = s)

/-- `HashMap::insert` on the sorted list of entries. [std] -/
def mapInsert (k : String) (v : JVal F) : List (String × JVal F) → List (String × JVal F)
  | [] => [(k, v)]
  | (k', v') :: es =>
    if k < k' then (k, v) :: (k', v') :: es
    else if k = k' then (k, v) :: es
    else (k', v') :: mapInsert k v es

/-- The entries of a map inserted one after the other: of two with the same key the last one stays. [serde: `HashMap`'s
`Deserialize`] -/
def mapOf (es : List (String × JVal F)) : List (String × JVal F) := es.foldl (fun m e => mapInsert e.1 e.2 m) []

/-- One member of an object that is read as a map. [serde: `HashMap`'s `Deserialize`, for /repo/src/state/mod.rs:235-242] -/
def readEntry (k : KeyTy) (f : Json F → Option (JVal F)) (m : String × Json F) : Option (String × JVal F) :=
  if keyOk k m.1 then (f m.2).map (fun v => (m.1, v)) else none

/-- A variant from a text: only one without data (serde_json's `UnitVariantAccess`; /repo/src/state/mod.rs:105-119). -/
def decodeUnit : JVariants → String → Option (JVal F)
  | .nil, _ => none
  | .unit k rest, n => if k = n then some (.variant n (.struct [])) else decodeUnit rest n
  | .newtype k _ rest, n => if k = n then none else decodeUnit rest n
  | .fields k _ rest, n => if k = n then none else decodeUnit rest n

/-- What is in a variant without data: `null`. [serde_json's `VariantAccess`; /repo/src/state/mod.rs:105-119] -/
def readNothing (n : String) : Json F → Option (JVal F)
  | .null => some (.variant n (.struct []))
  | _ => none

/-- What is in a variant with named fields: an object or an array. [serde_json's `VariantAccess`;
/repo/src/state/mod.rs:105-119] -/
def readParts (n : String) (fromMembers : List (String × Json F) → Option (List (JVal F)))
    (fromElements : List (Json F) → Option (List (JVal F))) : Json F → Option (JVal F)
  | .obj ms => (fromMembers ms).map (fun vs => .variant n (.struct vs))
  | .arr js => (fromElements js).map (fun vs => .variant n (.struct vs))
  | _ => none

mutual
/-- The derived `Deserialize`, as `serde_json::from_reader` and `from_slice` run it
(/repo/src/game_events/ability/balance_data/json_handler.rs:77-78, 117).  A struct may also be given as an array of its
fields. -/
def decode : JTy → Json F → Option (JVal F)
  | .string, .str s => some (.str s)
  | .bool, .bool b => some (.bool b)
  | .uint b, .int i => if 0 ≤ i ∧ i < 2 ^ b then some (.int i) else none
  | .sint b, .int i => if -2 ^ (b - 1) ≤ i ∧ i < 2 ^ (b - 1) then some (.int i) else none
  | .f32, .flt y => some (.flt (F.narrow y))
  | .f32, .int i => some (.flt (F.ofInt i))
  | .date, .str s => (F.readDate s).map .date
  | .opt t, j => readOpt (decode t) j
  | .list t, .arr js => (allOf (decode t) js).map .list
  | .array n t, .arr js => if js.length = n then (allOf (decode t) js).map .list else none
  | .map k t, .obj ms => (allOf (readEntry k (decode t)) ms).map (fun es => .map (mapOf es))
  | .struct fs, .obj ms => (decodeFields ms fs).map .struct
  | .struct fs, .arr js => (decodeSeq fs js).map .struct
  | .enum vs, .str n => decodeUnit vs n
  | .enum vs, .obj [(n, j)] => decodeTagged vs n j
  | _, _ => none
/-- The fields of a struct from the members of an object: unknown members are ignored, a field given twice is an error, a
skipped field is never looked at (/repo/src/game_events/ability/balance_data/json_handler.rs:77-78). -/
def decodeFields (ms : List (String × Json F)) : JFields → Option (List (JVal F))
  | .nil => some []
  | .cons k kind t rest =>
    match decodeFields ms rest with
    | none => none
    | some vs =>
      match kind with
      | .skip => some (dflt t :: vs)
      | .default =>
        match membersOf k ms with
        | [] => some (dflt t :: vs)
        | [j] => (decode t j).map (· :: vs)
        | _ => none
      | .required =>
        match membersOf k ms with
        | [] => (whenMissing t).map (· :: vs)
        | [j] => (decode t j).map (· :: vs)
        | _ => none
/-- The fields of a struct from the elements of an array: elements may be missing at the end only for fields with
`#[serde(default)]`, none may be left over (/repo/src/game_events/ability/balance_data/json_handler.rs:77-78). -/
def decodeSeq : JFields → List (Json F) → Option (List (JVal F))
  | .nil, [] => some []
  | .nil, _ :: _ => none
  | .cons _ .skip t rest, js => (decodeSeq rest js).map (dflt t :: ·)
  | .cons _ .default t rest, [] => (decodeSeq rest []).map (dflt t :: ·)
  | .cons _ .required _ _, [] => none
  | .cons _ _ t rest, j :: js =>
    match decode t j, decodeSeq rest js with
    | some v, some vs => some (v :: vs)
    | _, _ => none
/-- A variant from an object with one member, its name. A variant without data takes `null` (serde_json's `VariantAccess`;
/repo/src/state/mod.rs:105-119). -/
def decodeTagged : JVariants → String → Json F → Option (JVal F)
  | .nil, _, _ => none
  | .unit k rest, n, j =>
    if k = n then readNothing n j else decodeTagged rest n j
  | .newtype k t rest, n, j => if k = n then (decode t j).map (.variant n) else decodeTagged rest n j
  | .fields k fs rest, n, j =>
    if k = n then readParts n (fun ms => decodeFields ms fs) (fun js => decodeSeq fs js) j else decodeTagged rest n j
end

end S2.Json
