import Verif.Misc.GenTags
/-! # What the description says about event tags -/
namespace S2.Generator
open S2

/-- A struct, the enumeration and the value of one of its constants. -/
structure Declared where
  struct : Str
  enum : Str
  value : Str

/-- The constants of a declaration, if it is a struct. -/
def TagDecl.declared (d : TagDecl) : List Declared :=
  if d.isStruct then
    d.consts.filterMap (fun c => match c.enumName, c.value with
      | some e, some v => some ⟨d.name, e, v⟩
      | _, _ => none)
  else []

/-- … of an entry of a module: of a group, all of it. -/
def SubMod.declared : SubMod → List Declared
  | .group ds => ds.flatMap TagDecl.declared
  | .single d => d.declared

/-- Everything that the modules of the game and of the replay format declare, in the order of the description. -/
def declared (ms : List TopMod) : List Declared :=
  (ms.filter (fun m => decide (m.name = str "NNet.Replay" ∨ m.name = str "NNet.Game"))).flatMap
    (fun m => (m.decls.getD []).flatMap SubMod.declared)

/-- Are all constants usable (the generator panics otherwise)? -/
def TagDecl.sound (d : TagDecl) : Prop :=
  d.isStruct = true → ∀ c ∈ d.consts, c.enumName.isSome = true ∧ c.isIdent = true ∧ c.value.isSome = true

/-- … of an entry. -/
def SubMod.sound : SubMod → Prop
  | .group ds => ∀ d ∈ ds, d.sound
  | .single d => d.sound

/-- … of the description: and the two modules have entries. -/
def soundTags (ms : List TopMod) : Prop :=
  ∀ m ∈ ms, (m.name = str "NNet.Replay" ∨ m.name = str "NNet.Game") → ∃ subs, m.decls = some subs ∧ ∀ s ∈ subs, s.sound

end S2.Generator
