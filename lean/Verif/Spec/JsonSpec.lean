import Verif.Misc.Json
/-!
# What values there are, and what of them can be written to a JSON file

Independent of how values are written and read.
-/
namespace S2.Json

variable {F : Prims}

/-- The text of a key of the type: any text for a `String`, the decimal digits of a number of the type for an integer. -/
def KeyText : KeyTy → String → Prop
  | .string, _ => True
  | .uint b, s => ∃ i : Int, (0 ≤ i ∧ i < 2 ^ b) ∧ toString i = s
  | .sint b, s => ∃ i : Int, (-2 ^ (b - 1) ≤ i ∧ i < 2 ^ (b - 1)) ∧ toString i = s

mutual
/-- The values a Rust type has. -/
def Typed : JTy → JVal F → Prop
  | .string, .str _ => True
  | .bool, .bool _ => True
  | .uint b, .int i => 0 ≤ i ∧ i < 2 ^ b
  | .sint b, .int i => -2 ^ (b - 1) ≤ i ∧ i < 2 ^ (b - 1)
  | .f32, .flt _ => True
  | .date, .date _ => True
  | .opt _, .none => True
  | .opt t, .some v => Typed t v
  | .list t, .list vs => ∀ v ∈ vs, Typed t v
  | .array n t, .list vs => vs.length = n ∧ ∀ v ∈ vs, Typed t v
  | .map k t, .map es => es.Pairwise (fun e e' => e.1 < e'.1) ∧ ∀ e ∈ es, KeyText k e.1 ∧ Typed t e.2
  | .struct fs, .struct vs => TypedFields fs vs
  | .enum vs, .variant n v => TypedVariant vs n v
  | _, _ => False
/-- The values the fields of a struct have. -/
def TypedFields : JFields → List (JVal F) → Prop
  | .nil, [] => True
  | .cons _ _ t rest, v :: vs => Typed t v ∧ TypedFields rest vs
  | _, _ => False
/-- The values a variant has. -/
def TypedVariant : JVariants → String → JVal F → Prop
  | .nil, _, _ => False
  | .unit k rest, n, v => if k = n then v = .struct [] else TypedVariant rest n v
  | .newtype k t rest, n, v => if k = n then Typed t v else TypedVariant rest n v
  | .fields k fs rest, n, v => if k = n then ∃ vs, v = .struct vs ∧ TypedFields fs vs else TypedVariant rest n v
end

mutual
/-- Every floating point number in the value is finite, and every field that is not serialized has its default value. -/
def Plain : JTy → JVal F → Prop
  | .f32, .flt x => F.widen x ≠ none
  | .opt t, .some v => Plain t v
  | .list t, .list vs => ∀ v ∈ vs, Plain t v
  | .array _ t, .list vs => ∀ v ∈ vs, Plain t v
  | .map _ t, .map es => ∀ e ∈ es, Plain t e.2
  | .struct fs, .struct vs => PlainFields fs vs
  | .enum vs, .variant n v => PlainVariant vs n v
  | _, _ => True
/-- [part of `Plain`] -/
def PlainFields : JFields → List (JVal F) → Prop
  | .cons _ .skip t rest, v :: vs => v = dflt t ∧ PlainFields rest vs
  | .cons _ .required t rest, v :: vs => Plain t v ∧ PlainFields rest vs
  | .cons _ .default t rest, v :: vs => Plain t v ∧ PlainFields rest vs
  | _, _ => True
/-- [part of `Plain`] -/
def PlainVariant : JVariants → String → JVal F → Prop
  | .nil, _, _ => True
  | .unit k rest, n, v => if k = n then True else PlainVariant rest n v
  | .newtype k t rest, n, v => if k = n then Plain t v else PlainVariant rest n v
  | .fields k fs rest, n, v => if k = n then ∀ vs, v = .struct vs → PlainFields fs vs else PlainVariant rest n v
end

mutual
/-- Every floating point number in a serialized field of the value is finite. -/
def AllFinite : JTy → JVal F → Prop
  | .f32, .flt x => F.widen x ≠ none
  | .opt t, .some v => AllFinite t v
  | .list t, .list vs => ∀ v ∈ vs, AllFinite t v
  | .array _ t, .list vs => ∀ v ∈ vs, AllFinite t v
  | .map _ t, .map es => ∀ e ∈ es, AllFinite t e.2
  | .struct fs, .struct vs => AllFiniteFields fs vs
  | .enum vs, .variant n v => AllFiniteVariant vs n v
  | _, _ => True
/-- [part of `AllFinite`] -/
def AllFiniteFields : JFields → List (JVal F) → Prop
  | .cons _ .skip _ rest, _ :: vs => AllFiniteFields rest vs
  | .cons _ .required t rest, v :: vs => AllFinite t v ∧ AllFiniteFields rest vs
  | .cons _ .default t rest, v :: vs => AllFinite t v ∧ AllFiniteFields rest vs
  | _, _ => True
/-- [part of `AllFinite`] -/
def AllFiniteVariant : JVariants → String → JVal F → Prop
  | .nil, _, _ => True
  | .unit k rest, n, v => if k = n then True else AllFiniteVariant rest n v
  | .newtype k t rest, n, v => if k = n then AllFinite t v else AllFiniteVariant rest n v
  | .fields k fs rest, n, v => if k = n then ∀ vs, v = .struct vs → AllFiniteFields fs vs else AllFiniteVariant rest n v
end

mutual
/-- The value with every field that is not serialized set to its default value. -/
def reset : JTy → JVal F → JVal F
  | .opt t, .some v => .some (reset t v)
  | .list t, .list vs => .list (vs.map (reset t))
  | .array _ t, .list vs => .list (vs.map (reset t))
  | .map _ t, .map es => .map (es.map (fun e => (e.1, reset t e.2)))
  | .struct fs, .struct vs => .struct (resetFields fs vs)
  | .enum vs, .variant n v => .variant n (resetVariant vs n v)
  | _, v => v
/-- [part of `reset`] -/
def resetFields : JFields → List (JVal F) → List (JVal F)
  | .cons _ .skip t rest, _ :: vs => dflt t :: resetFields rest vs
  | .cons _ .required t rest, v :: vs => reset t v :: resetFields rest vs
  | .cons _ .default t rest, v :: vs => reset t v :: resetFields rest vs
  | _, vs => vs
/-- [part of `reset`] -/
def resetVariant : JVariants → String → JVal F → JVal F
  | .nil, _, v => v
  | .unit k rest, n, v => if k = n then v else resetVariant rest n v
  | .newtype k t rest, n, v => if k = n then reset t v else resetVariant rest n v
  | .fields k fs rest, n, v => if k = n then .struct (resetFields fs (partsOf v)) else resetVariant rest n v
end

mutual
/-- The same JSON tree, up to the order of the members of its objects. -/
inductive JSame : Json F → Json F → Prop
  | null : JSame .null .null
  | bool (b : Bool) : JSame (.bool b) (.bool b)
  | int (i : Int) : JSame (.int i) (.int i)
  | flt (x : F.F64) : JSame (.flt x) (.flt x)
  | str (s : String) : JSame (.str s) (.str s)
  | arr {js js' : List (Json F)} : JSameList js js' → JSame (.arr js) (.arr js')
  | obj {ms ms' ms'' : List (String × Json F)} : JSameMembers ms ms' → ms'.Perm ms'' → JSame (.obj ms) (.obj ms'')
/-- [part of `JSame`: one by one] -/
inductive JSameList : List (Json F) → List (Json F) → Prop
  | nil : JSameList [] []
  | cons {j j' : Json F} {js js' : List (Json F)} : JSame j j' → JSameList js js' → JSameList (j :: js) (j' :: js')
/-- [part of `JSame`: one by one, under the same names] -/
inductive JSameMembers : List (String × Json F) → List (String × Json F) → Prop
  | nil : JSameMembers [] []
  | cons {j j' : Json F} {ms ms' : List (String × Json F)} (k : String) : JSame j j' → JSameMembers ms ms' →
      JSameMembers ((k, j) :: ms) ((k, j') :: ms')
end

/-- A struct has a field of this serialized name, attribute and type. -/
def HasField (k : String) (kind : Kind) (t : JTy) : JFields → Prop
  | .nil => False
  | .cons k' kind' t' rest => (k = k' ∧ kind = kind' ∧ t = t') ∨ HasField k kind t rest

/-- How often an object has a member of this name. -/
def occurrences (k : String) (ms : List (String × Json F)) : Nat := (ms.filter (fun m => decide (m.1 = k))).length

end S2.Json
