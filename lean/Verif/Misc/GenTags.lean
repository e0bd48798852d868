import Verif.Text
/-!
# The table of event tags of the generator

/repo/src/generator/proto_morphist.rs: a first pass over the description finds the structs that declare a constant of an
enumeration type; the table it fills decides which struct is parsed behind which value of that enumeration.

The JSON description is given by the members the pass looks at.  Names are taken to contain no character that JSON escapes, so
that `Value::to_string` is the name in quotes, which `trim_matches('"')` takes off again.  The case conversion (`convert_case`) is a
parameter.
-/
namespace S2.Generator
open S2

/-- `replace(pat, "")`: the occurrences of `pat` from left to right, without overlap, left out; `n` characters are still to be
skipped.  [std `str::replace`] -/
def cutOut (pat : Str) : Nat → Str → Str
  | _, [] => []
  | n + 1, _ :: t => cutOut pat n t
  | 0, c :: t => if pat ≠ [] ∧ pat.isPrefixOf (c :: t) = true then cutOut pat (pat.length - 1) t else c :: cutOut pat 0 t

/-- `trim_matches('"')` [std] -/
def trimQuotes (s : Str) : Str :=
  ((s.dropWhile (· == 34)).reverse.dropWhile (· == 34)).reverse

/-- `str_nnet_name_to_rust_name` (/repo/src/generator/proto_morphist.rs:590-596); `pascal` is `to_case(Case::Pascal)`. -/
def rustName (pascal : Str → Str) (s : Str) : Str :=
  pascal (trimQuotes (cutOut (str "NNet") 0 (cutOut (str ".") 0 s)))

/-- A `ConstDecl` member of a struct: `type_info.fullname`, whether `value.type` is `IdentifierExpr`, `value.fullname`
(/repo/src/generator/proto_morphist.rs:324-345). -/
structure TagConst where
  enumName : Option Str
  isIdent : Bool
  value : Option Str

/-- A declaration: `fullname`, whether `type_info.type` is `StructType`, and its `ConstDecl` members; the other members are
skipped (/repo/src/generator/proto_morphist.rs:308-330). -/
structure TagDecl where
  name : Str
  isStruct : Bool
  consts : List TagConst

/-- An entry of `decls` of a module: one with `decls` of its own, or not (/repo/src/generator/proto_morphist.rs:130-139). -/
inductive SubMod
  | group (ds : List TagDecl)
  | single (d : TagDecl)

/-- An entry of `modules[0].decls` (/repo/src/generator/proto_morphist.rs:113-129). -/
structure TopMod where
  name : Str
  decls : Option (List SubMod)

/-- The key of a constant: `{type_variant}::{type_variant_value}` (/repo/src/generator/proto_morphist.rs:342-353). -/
def tagKey (pascal : Str → Str) (enumName value : Str) : Str :=
  rustName pascal enumName ++ (str "::" ++ rustName pascal (cutOut enumName 0 value))

/-- `enum_tags`; only `get` and `insert` are used. [/repo/src/generator/proto_morphist.rs:20-30] -/
abbrev Tags := List (Str × Str)

/-- `HashMap::get` [std] -/
def Tags.get (t : Tags) (k : Str) : Option Str := (t.find? (fun p => p.1 == k)).map Prod.snd

/-- One constant of a struct: the first struct of a key is kept (/repo/src/generator/proto_morphist.rs:325-363). -/
def fillConst (pascal : Str → Str) (name : Str) (t : Tags) (c : TagConst) : Res Tags :=
  match c.enumName with
  | none => .panic                                      -- `unwrap`
  | some e =>
    if c.isIdent then
      match c.value with
      | none => .panic                                  -- `unwrap`
      | some v =>
        match t.get (tagKey pascal e v) with
        | some _ => .ok t
        | none => .ok (t ++ [(tagKey pascal e v, rustName pascal name)])
    else .panic                                         -- 335-341

/-- The constants of a struct, in order (/repo/src/generator/proto_morphist.rs:323-364). -/
def fillConsts (pascal : Str → Str) (name : Str) : Tags → List TagConst → Res Tags
  | t, [] => .ok t
  | t, c :: cs => fillConst pascal name t c >>= fun t => fillConsts pascal name t cs

/-- `fill_module_decl_structs` (/repo/src/generator/proto_morphist.rs:308-365) -/
def fillDecl (pascal : Str → Str) (t : Tags) (d : TagDecl) : Res Tags :=
  if d.isStruct then fillConsts pascal d.name t d.consts else .ok t

/-- The declarations of a group (/repo/src/generator/proto_morphist.rs:131-135). -/
def fillDecls (pascal : Str → Str) : Tags → List TagDecl → Res Tags
  | t, [] => .ok t
  | t, d :: ds => fillDecl pascal t d >>= fun t => fillDecls pascal t ds

/-- The entries of a module (/repo/src/generator/proto_morphist.rs:129-139). -/
def fillSubs (pascal : Str → Str) : Tags → List SubMod → Res Tags
  | t, [] => .ok t
  | t, .group ds :: rest => fillDecls pascal t ds >>= fun t => fillSubs pascal t rest
  | t, .single d :: rest => fillDecl pascal t d >>= fun t => fillSubs pascal t rest

/-- `collect_enum_tags` (/repo/src/generator/proto_morphist.rs:111-144) -/
def collectTags (pascal : Str → Str) : Tags → List TopMod → Res Tags
  | t, [] => .ok t
  | t, m :: ms =>
    if m.name = str "NNet.Replay" ∨ m.name = str "NNet.Game" then
      match m.decls with
      | none => .panic                                  -- "should have '.decls' array"
      | some subs => fillSubs pascal t subs >>= fun t => collectTags pascal t ms
    else collectTags pascal t ms

/-- The struct parsed behind a value of an enumeration, in both halves of the generated module
(/repo/src/generator/decoder_type.rs:1651-1690). -/
def payloadOf (pascal : Str → Str) (t : Tags) (enumName variant : Str) : Option Str :=
  t.get (rustName pascal enumName ++ (str "::" ++ rustName pascal variant))

end S2.Generator
