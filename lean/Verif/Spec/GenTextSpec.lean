import Verif.Misc.GenText
/-! # Delimiters and names of generated text -/
namespace S2.Generator
open S2

/-- The closing delimiter of an opening one. -/
def closer : Char → Option Char
  | '{' => some '}'
  | '(' => some ')'
  | '[' => some ']'
  | _ => none

/-- Is it a closing delimiter? -/
def isCloser (c : Char) : Bool := c == '}' || c == ')' || c == ']'

/-- Reading a character: the closing delimiters that are awaited (innermost first) before and after it; `none` at a delimiter that is not awaited. -/
def await (s : List Char) (c : Char) : Option (List Char) :=
  match closer c with
  | some k => some (k :: s)
  | none => if isCloser c then (if s.head? = some c then some s.tail else none) else some s

/-- Reading a text. -/
def awaited : List Char → Txt → Option (List Char)
  | s, [] => some s
  | s, c :: r => (await s c).bind (fun s' => awaited s' r)

/-- Every delimiter is closed by its own kind, in the right order, and none is left open. -/
def Balanced (t : Txt) : Prop := awaited [] t = some []

/-- A text without delimiters. -/
def NoDelimiters (t : Txt) : Prop := ∀ c ∈ t, closer c = none ∧ isCloser c = false

/-- Names and numbers are written without delimiters. -/
def Naming.Plain (nm : Naming) : Prop :=
  (∀ n, NoDelimiters (nm.rust n)) ∧ (∀ n, NoDelimiters (nm.snake n)) ∧ ∀ i, NoDelimiters (nm.num i)

/-- A character of an identifier. -/
def isWordChar (c : Char) : Bool := c.isAlphanum || c == '_'

/-- The words and the other visible characters of a text, in order; `w` is the word read so far, reversed. -/
def wordsFrom : Txt → Txt → List Txt
  | w, [] => if w = [] then [] else [w.reverse]
  | w, c :: r =>
    if isWordChar c then wordsFrom (c :: w) r
    else (if w = [] then [] else [w.reverse]) ++ (if c.isWhitespace then [] else [[c]]) ++ wordsFrom [] r

/-- A text without what it has between quotation marks (`q`: are we between them?). -/
def outsideQuotes : Bool → Txt → Txt
  | _, [] => []
  | q, c :: r => if c = '"' then outsideQuotes (!q) r else if q then outsideQuotes q r else c :: outsideQuotes q r

/-- The words and punctuation of a text, outside of string literals. -/
def tokens (t : Txt) : List Txt := wordsFrom [] (outsideQuotes false t)

/-- The tokens up to the first of one of these. -/
def upTo (stops : List Txt) : List Txt → List Txt
  | [] => []
  | t :: r => if t ∈ stops then [] else t :: upTo stops r

/-- What can bind a variable in the emitted text: everything between `let` and `=` or `:`, between `for` and `in`, between `|` and `|`, and between the parentheses
after `fn` and its name.  (More than is bound; so a word that is not here is bound nowhere.) -/
def bindings : List Txt → List Txt
  | [] => []
  | t :: r =>
    (if t = lit "let" then upTo [lit "=", lit ":"] r
     else if t = lit "for" then upTo [lit "in"] r
     else if t = lit "|" then upTo [lit "|"] r
     else if t = lit "fn" then upTo [lit ")"] r
     else []) ++ bindings r

/-- The text uses a word as the last argument of a call (before a closing parenthesis) that nothing in it binds. -/
def UsesUnbound (t : Txt) (w : Txt) : Prop :=
  (∃ pre post : List Txt, tokens t = pre ++ w :: lit ")" :: post) ∧ w ∉ bindings (tokens t)

/-- The text of an entry of the table says: this reader. [specification] -/
def Says (m : Morph) : VMorph → Prop
  | .int k => m.parser = lit "tagged_vlq_int" ∧ m.doTryFrom = true ∧ m.isVec = false ∧ m.isOptional = false ∧
      m.rustTy = lit (match k with | .u8 => "u8" | .u16 => "u16" | .u32 => "u32" | .i32 => "i32" | .u64 => "u64" | .i64 => "i64")
  | .blob => m = ⟨lit "Vec<u8>", lit "tagged_blob", false, false, false⟩
  | .bool => m = ⟨lit "bool", lit "tagged_bool", false, false, false⟩
  | .fourcc => m = ⟨lit "u32", lit "tagged_fourcc", false, false, false⟩
  | .user => m.parser = m.rustTy ++ lit "::parse" ∧ m.doTryFrom = false ∧ m.isVec = false ∧ m.isOptional = false
  | .blobs => m = ⟨lit "Vec<Vec<u8>>", lit "tagged_blob", false, false, true⟩
  | .players => m = ⟨lit "Vec<GameSPlayerDetails>", lit "GameSPlayerDetails::parse", false, false, true⟩
  | .optional => m = ⟨lit "Option<{}>", lit "{}", false, true, false⟩
  | .vec => m = ⟨lit "Vec<{}>", lit "{}", false, false, true⟩

/-- The pieces occur in a text in this order, one after the other. [specification] -/
def Occur : List Txt → Txt → Prop
  | [], _ => True
  | p :: ps, t => ∃ a b, t = a ++ (p ++ b) ∧ Occur ps b

/-- The names of the members of a struct that are in the data (constants are not). [specification] -/
def VMembers.names : VMembers → List String
  | .nil => []
  | .const rest => rest.names
  | .member _ name _ rest => name :: rest.names

/-- The text of a struct declares a field, defines its reader, declares its variable, calls the reader, stores what it read and returns the variable — in this order.
[specification] -/
def DeclaredInText (f ty fns : Txt) : Prop :=
  Occur [lit "pub " ++ f ++ lit ": "] ty ∧
  Occur [lit "pub fn parse_" ++ f ++ lit "(input: &[u8])", lit "let mut " ++ f ++ lit ": Option<", lit "Self::parse_" ++ f ++ lit "(tail)?",
    f ++ lit " = Some(parsed_" ++ f ++ lit ");", f ++ lit ": ok_or_return_missing_field_err!(" ++ f ++ lit ")"] fns

end S2.Generator
