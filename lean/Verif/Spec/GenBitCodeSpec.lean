import Verif.Misc.GenBitCode
import Verif.Spec.GenDeclSpec
import Verif.Spec.GenTextSpec
/-! # Modules of generated bit-packed code -/
namespace S2.Generator
open S2

mutual
/-- The description without its names. [specification] -/
def TDesc.erase : TDesc → Desc
  | .named _ d => .ref d.erase
  | .bool => .bool
  | .null => .null
  | .fourcc => .fourcc
  | .int b => .int b
  | .blob b => .blob b
  | .string b => .string b
  | .ascii b => .ascii b
  | .bitArray b => .bitArray b
  | .array b e => .array b e.erase
  | .dynArray b e => .dynArray b e.erase
  | .optional t => .optional t.erase
  | .choice vs => .choice vs.erase
  | .other _ => .other
/-- [specification] -/
def TDecl.erase : TDecl → Decl
  | .struct fs => .struct fs.erase
  | .choice vs => .choice vs.erase
  | .enum vs => .enum vs.erase
  | .int b => .int b
  | .bitArray b => .bitArray b
  | .user _ d => .user d.erase
  | .blob b => .blob b
  | .string b => .string b
  | .array b e => .array b e.erase
/-- [specification] -/
def TMembers.erase : TMembers → Members
  | .nil => .nil
  | .const rest => .const rest.erase
  | .member name t rest => .member name t.erase rest.erase
/-- [specification] -/
def TVariants.erase : TVariants → Variants
  | .nil => .nil
  | .cons tag _ t rest => .cons tag t.erase rest.erase
/-- [specification] -/
def TValues.erase : TValues → Values
  | .nil => .nil
  | .plain value _ rest => .plain value rest.erase
  | .event value _ _ d rest => .event value d.erase rest.erase
end

mutual
/-- The declarations a description refers to, with the names it uses for them; the choice inside a member `m_eventData` is one of them. [specification] -/
def TDesc.refs : TDesc → List (String × TDecl)
  | .named n d => (n, d) :: d.refs
  | .array _ e => e.refs
  | .dynArray _ e => e.refs
  | .optional t => t.refs
  | .choice vs => ("m_eventData", .choice vs) :: vs.refs
  | _ => []
/-- [specification] -/
def TDecl.refs : TDecl → List (String × TDecl)
  | .struct fs => fs.refs
  | .choice vs => vs.refs
  | .enum vs => vs.refs
  | .user n d => (n, d) :: d.refs
  | .array _ e => e.refs
  | _ => []
/-- [specification] -/
def TMembers.refs : TMembers → List (String × TDecl)
  | .nil => []
  | .const rest => rest.refs
  | .member _ t rest => t.refs ++ rest.refs
/-- [specification] -/
def TVariants.refs : TVariants → List (String × TDecl)
  | .nil => []
  | .cons _ _ t rest => t.refs ++ rest.refs
/-- [specification] -/
def TValues.refs : TValues → List (String × TDecl)
  | .nil => []
  | .plain _ _ rest => rest.refs
  | .event _ _ s d rest => (s, d) :: (d.refs ++ rest.refs)
end

/-- The names of the members. [specification] -/
def TMembers.names : TMembers → List String
  | .nil => []
  | .const rest => rest.names
  | .member name _ rest => name :: rest.names

/-- The kinds that stand inside an optional variant without being one of the known kinds; they are written between quotation marks. [specification] -/
def TVariants.otherKinds : TVariants → List String
  | .nil => []
  | .cons _ _ (.optional (.other k)) rest => k :: rest.otherKinds
  | .cons _ _ _ rest => rest.otherKinds

/-- [specification] -/
def TDecl.otherKinds : TDecl → List String
  | .choice vs => vs.otherKinds
  | _ => []

/-- A module of declarations for which code is written, with everything they refer to. [specification] -/
structure BitModule (nm : Naming) where
  decls : List (String × TDecl)
  /-- the generator does not panic -/
  written : ∀ p ∈ decls, ∃ k, declCode nm p.2 = some k
  /-- what is referred to is declared -/
  closed : ∀ p ∈ decls, ∀ r ∈ p.2.refs, r ∈ decls
  /-- members have different names, and none is called `tail` or `new_tail` -/
  fields : ∀ n fs, (n, TDecl.struct fs) ∈ decls →
    (fs.names.map nm.snake).Nodup ∧ lit "tail" ∉ fs.names.map nm.snake ∧ lit "new_tail" ∉ fs.names.map nm.snake
  /-- the conversion of names -/
  eventData : nm.rust "m_eventData" = lit "MEventData"

/-- The functions `X::parse` of the compiled module: each runs the code written for its declaration, and calls the others by their names. [specification] -/
def BitModule.Compiled {nm : Naming} (M : BitModule nm) (bld : Build) (env : Txt → Prog) : Prop :=
  ∀ n d k, (n, d) ∈ M.decls → declCode nm d = some k → env (nm.rust n) = k.run bld env

end S2.Generator
